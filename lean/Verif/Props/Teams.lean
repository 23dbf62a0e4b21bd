import Verif.Spec.Teams
import Verif.Props.Programs

/-!
# C120: threads and processes under pledges
-/
set_option autoImplicit false

namespace Props
open Pledge Bpfvm Spec Kernel

/-! ## Helpers -/

/-- Two threads that differ by the filters of pledges. -/
def MateRel (l : Nat → List Past) (k k' : Mate) : Prop :=
  k'.proc = k.proc ∧ k'.root = k.root ∧ k'.ended = k.ended ∧
    ∃ new old, k.thread.filters = new ++ old ∧
      k'.thread.filters = new ++ (((l k.root).map fun p => progOf p.ids p.ps p.v.toU32) ++ old)

def TeamRel {σ ω : Type} (l : Nat → List Past) (s s' : Team σ ω) : Prop :=
  s'.mem = s.mem ∧ s'.world = s.world ∧ s'.did = s.did ∧ s'.mates.length = s.mates.length ∧
    ∀ (i : Nat) (k k' : Mate), s.mates[i]? = some k → s'.mates[i]? = some k' → MateRel l k k'

section
variable {σ ω ρ : Type} {m : Works σ ω ρ} {l : Nat → List Past}

theorem TeamRel.alike {s s' : Team σ ω} (h : TeamRel l s s') : AlikeTeams s' s := by
  refine ⟨h.1, h.2.1, h.2.2.1, List.ext_getElem? fun i => ?_⟩
  rw [List.getElem?_map, List.getElem?_map]
  cases hk : s.mates[i]? with
  | none =>
    have : s'.mates[i]? = none := by
      rw [List.getElem?_eq_none_iff] at hk ⊢
      rw [h.2.2.2.1]; exact hk
    rw [this]
  | some k =>
    have hi : i < s'.mates.length := by
      rw [h.2.2.2.1]; exact (List.getElem?_eq_some_iff.1 hk).1
    rw [List.getElem?_eq_getElem hi]
    have := h.2.2.2.2 i k _ hk (List.getElem?_eq_getElem hi)
    simp only [Option.map_some, this.1, this.2.1, this.2.2.1]

/-- The counterpart of a thread. -/
theorem TeamRel.mate {s s' : Team σ ω} (h : TeamRel l s s') {i : Nat} {k : Mate} (hk : s.mates[i]? = some k) :
    ∃ k', s'.mates[i]? = some k' ∧ MateRel l k k' := by
  have hi : i < s'.mates.length := by
    rw [h.2.2.2.1]; exact (List.getElem?_eq_some_iff.1 hk).1
  exact ⟨_, List.getElem?_eq_getElem hi, h.2.2.2.2 i k _ hk (List.getElem?_eq_getElem hi)⟩

theorem TeamRel.none {s s' : Team σ ω} (h : TeamRel l s s') {i : Nat} (hk : s.mates[i]? = none) : s'.mates[i]? = none := by
  rw [List.getElem?_eq_none_iff] at hk ⊢
  rw [h.2.2.2.1]; exact hk

theorem TeamRel.dies {s s' : Team σ ω} (h : TeamRel l s s') (i : Nat) (whole : Bool) :
    TeamRel l (s.dies m i whole) (s'.dies m i whole) := by
  unfold Team.dies
  cases hk : s.mates[i]? with
  | none => rw [h.none hk]; exact h
  | some k =>
    obtain ⟨k', hk', hr⟩ := h.mate hk
    rw [hk']
    simp only [hr.2.2.1]
    split
    · exact h
    · refine ⟨h.1, by simp only [h.2.1], by simp only [h.2.2.1], by simp [h.2.2.2.1], ?_⟩
      intro j q q' hq hq'
      simp only [List.getElem?_mapIdx] at hq hq'
      cases ha : s.mates[j]? with
      | none => rw [ha] at hq; cases hq
      | some a =>
        obtain ⟨a', ha', hra⟩ := h.mate ha
        rw [ha] at hq
        rw [ha'] at hq'
        simp only [Option.map_some, Option.some.injEq] at hq hq'
        rw [hr.1, hra.1] at hq'
        subst hq hq'
        split
        · exact ⟨by first | rfl | exact hra.1, hra.2.1, rfl, hra.2.2.2⟩
        · exact hra

/-- A thread's turn, if its pledges permit what it asks for. -/
theorem TeamRel.turn {s s' : Team σ ω} (h : TeamRel l s s') (i : Nat) (hw : ∀ r d, Wants m s i r d → AllAllow (l r) d) :
    TeamRel l (s.step m (.turn i)) (s'.step m (.turn i)) := by
  simp only [Team.step]
  cases hk : s.mates[i]? with
  | none => rw [h.none hk]; exact h
  | some k =>
    obtain ⟨k', hk', hr⟩ := h.mate hk
    rw [hk']
    simp only [hr.2.2.1]
    split
    · exact h
    · rename_i he
      rw [h.1]
      cases hq : m.asks s.mem i with
      | none => exact h
      | some d =>
        obtain ⟨new, old, h1, h2⟩ := hr.2.2.2
        have hent := enter_insert h1 h2 (hw _ d ⟨k, hk, by simpa using he, rfl, hq⟩)
        simp only
        rw [hent]
        cases enter k.thread d with
        | errno n => exact ⟨rfl, h.2.1, h.2.2.1, h.2.2.2.1, h.2.2.2.2⟩
        | trap => exact h.dies i true
        | killThread => exact h.dies i false
        | killProcess => exact h.dies i true
        | executed =>
          simp only [h.2.1, h.2.2.1]
          refine ⟨rfl, rfl, rfl, by cases m.starts s.world i d <;> simp [h.2.2.2.1], ?_⟩
          intro j q q' hq hq'
          simp only [List.getElem?_append, List.length_set, List.getElem?_set] at hq hq'
          rw [h.2.2.2.1] at hq'
          split at hq
          · rename_i hj
            rw [if_pos hj] at hq'
            split at hq
            · rename_i hij
              subst hij
              rw [if_pos rfl] at hq'
              rw [if_pos hj] at hq hq'
              cases hq; cases hq'
              exact ⟨hr.1, hr.2.1, by first | rfl | exact hr.2.2.1, m.installs s.world i d ++ new, old, by simp [h1], by simp [h2]⟩
            · rename_i hij
              rw [if_neg hij] at hq'
              exact h.2.2.2.2 j q q' hq hq'
          · rename_i hj
            rw [if_neg hj] at hq'
            cases hc : m.starts s.world i d with
            | none => rw [hc] at hq; simp at hq
            | some c =>
              rw [hc] at hq hq'
              simp only [Option.map_some, Option.toList_some] at hq hq'
              cases hx : j - s.mates.length with
              | succ x => rw [hx] at hq; simp at hq
              | zero =>
                rw [hx] at hq hq'
                simp only [List.getElem?_cons_zero, Option.some.injEq] at hq hq'
                subst hq hq'
                refine ⟨?_, hr.2.1, rfl, m.installs s.world i d ++ new, old, by simp [Mate.child, h1], by simp [Mate.child, h2]⟩
                simp only [Mate.child, hr.1]

/-- A thread's turn, if its pledges do not permit what it asks for and kill. -/
theorem TeamRel.cut {s s' : Team σ ω} (h : TeamRel l s s') {i r : Nat} {d : SeccompData} (hw : Wants m s i r d) (hn : ¬ AllAllow (l r) d)
    (hv : ∀ p ∈ l r, Deadly p.v) :
    ∃ whole, ((∀ p ∈ l r, p.v = .KillProcess) → whole = true) ∧
      TeamRel l (s.step m (.kill i whole)) (s'.step m (.turn i)) := by
  obtain ⟨k, hk, he, rfl, hq⟩ := hw
  obtain ⟨k', hk', hr⟩ := h.mate hk
  obtain ⟨new, old, h1, h2⟩ := hr.2.2.2
  obtain ⟨p, hn⟩ := Classical.not_forall.1 hn
  obtain ⟨hp, hn⟩ := Classical.not_imp.1 hn
  have hm : progOf p.ids p.ps p.v.toU32 ∈ new ++ (((l k.root).map fun p => progOf p.ids p.ps p.v.toU32) ++ old) :=
    List.mem_append_right _ (List.mem_append_left _ (List.mem_map.2 ⟨p, hp, rfl⟩))
  have hs := enter_stopped h2 hm (hv p hp) hn
  have hstep : ∀ whole, (match enter k'.thread d with | .killThread => false | _ => true) = whole →
      s'.step m (.turn i) = s'.dies m i whole := by
    intro whole hwh
    simp only [Team.step]
    rw [hk']
    simp only [hr.2.2.1, he]
    rw [h.1, hq]
    rcases hs with hs | hs | hs <;> rw [hs] at hwh <;> subst hwh <;> simp [hs]
  refine ⟨(match enter k'.thread d with | .killThread => false | _ => true), ?_, ?_⟩
  · intro hkp
    rw [enter_killed h2 hm (hkp p hp) hn]
  · rw [hstep _ rfl]
    exact h.dies i _

theorem pledged_rel {ks ks' : List Mate} (h : PledgedTeam l ks ks') (x : σ) (w : ω) : TeamRel l (Team.new x w ks) (Team.new x w ks') := by
  refine ⟨rfl, rfl, rfl, h.1, fun i k k' hk hk' => ?_⟩
  obtain ⟨h1, k'', h2, h3, h4, h5, h6⟩ := h.2 i k hk
  rw [show ks'[i]? = some k' from hk'] at h2
  cases h2
  refine ⟨h3, h4.trans h1.symm, h5, [], k.thread.filters, rfl, ?_⟩
  rw [h1]
  exact (atop_iff _ _ _).1 h6

theorem cuts_run {s s' : Team σ ω} (h : TeamRel l s s') (hv : ∀ i, ∀ p ∈ l i, Deadly p.v) (es : List Event) :
    ∃ es', Cuts m l s es es' ∧ TeamRel l (s.run m es') (s'.run m es) := by
  induction es generalizing s s' with
  | nil => exact ⟨[], .done _, h⟩
  | cons e es ih =>
    cases e with
    | kill i whole =>
      obtain ⟨es', h1, h2⟩ := ih (h.dies (m := m) i whole)
      exact ⟨_, .kill _ _ _ _ _ h1, h2⟩
    | turn i =>
      by_cases hw : ∀ r d, Wants m s i r d → AllAllow (l r) d
      · obtain ⟨es', h1, h2⟩ := ih (h.turn i hw)
        exact ⟨_, .turn _ _ _ _ hw h1, h2⟩
      · obtain ⟨r, hw⟩ := Classical.not_forall.1 hw
        obtain ⟨d, hw⟩ := Classical.not_forall.1 hw
        obtain ⟨hw, hn⟩ := Classical.not_imp.1 hw
        obtain ⟨whole, h1, h2⟩ := h.cut hw hn (hv r)
        obtain ⟨es', h3, h4⟩ := ih h2
        exact ⟨_, .cut _ _ _ _ _ _ _ hw hn h1 h3, h4⟩

theorem ended_step {s : Team σ ω} (h : ∀ k ∈ s.mates, k.ended = true) (e : Event) : s.step m e = s := by
  have hd : ∀ i whole, s.dies m i whole = s := by
    intro i whole
    unfold Team.dies
    cases hk : s.mates[i]? with
    | none => rfl
    | some k => simp only [h k (List.mem_of_getElem? hk)]; rfl
  cases e with
  | kill i whole => exact hd i whole
  | turn i =>
    simp only [Team.step]
    cases hk : s.mates[i]? with
    | none => rfl
    | some k => simp only [h k (List.mem_of_getElem? hk)]; rfl

theorem ended_run {s : Team σ ω} (h : ∀ k ∈ s.mates, k.ended = true) (es : List Event) : s.run m es = s := by
  induction es with
  | nil => rfl
  | cons e es ih =>
    show (s.step m e).run m es = s
    rw [ended_step h, ih]

/-- The end of a process that is all there is. -/
theorem dies_all {s : Team σ ω} {c i : Nat} {k : Mate} (hc : ∀ k ∈ s.mates, k.proc = c) (hk : s.mates[i]? = some k) (he : k.ended = false) :
    ∀ q ∈ (s.dies m i true).mates, q.ended = true := by
  unfold Team.dies
  rw [hk]
  simp only [he]
  intro q hq
  obtain ⟨j, hj⟩ := List.getElem?_of_mem hq
  simp only [Bool.false_eq_true, if_false, List.getElem?_mapIdx] at hj
  cases ha : s.mates[j]? with
  | none => rw [ha] at hj; cases hj
  | some a =>
    rw [ha] at hj
    simp only [Option.map_some, Option.some.injEq] at hj
    rw [if_pos (.inr ⟨trivial, (hc a (List.mem_of_getElem? ha)).trans (hc k (List.mem_of_getElem? hk)).symm⟩)] at hj
    rw [← hj]

theorem dies_proc {s : Team σ ω} {c : Nat} (hc : ∀ k ∈ s.mates, k.proc = c) (i : Nat) (whole : Bool) :
    ∀ k ∈ (s.dies m i whole).mates, k.proc = c := by
  unfold Team.dies
  cases hk : s.mates[i]? with
  | none => exact hc
  | some k =>
    simp only
    split
    · exact hc
    · intro q hq
      obtain ⟨j, hj⟩ := List.getElem?_of_mem hq
      simp only [List.getElem?_mapIdx] at hj
      cases ha : s.mates[j]? with
      | none => rw [ha] at hj; cases hj
      | some a =>
        rw [ha] at hj
        simp only [Option.map_some, Option.some.injEq] at hj
        rw [← hj]
        split <;> exact hc a (List.mem_of_getElem? ha)

theorem step_proc (hs : ∀ w i d c, m.starts w i d = some c → c.1 = false) {s : Team σ ω} {c : Nat} (hc : ∀ k ∈ s.mates, k.proc = c)
    (e : Event) : ∀ k ∈ (s.step m e).mates, k.proc = c := by
  cases e with
  | kill i whole => exact dies_proc hc i whole
  | turn i =>
    simp only [Team.step]
    cases hk : s.mates[i]? with
    | none => exact hc
    | some k =>
      simp only
      split
      · exact hc
      · cases m.asks s.mem i with
        | none => exact hc
        | some d =>
          simp only
          cases enter k.thread d with
          | errno n => exact hc
          | trap => exact dies_proc hc i true
          | killThread => exact dies_proc hc i false
          | killProcess => exact dies_proc hc i true
          | executed =>
            have hkc := hc k (List.mem_of_getElem? hk)
            intro q hq
            rcases List.mem_append.1 hq with hq | hq
            · rcases List.mem_or_eq_of_mem_set hq with hq | hq
              · exact hc q hq
              · rw [hq]; exact hkc
            · cases hst : m.starts s.world i d with
              | none => rw [hst] at hq; cases hq
              | some n =>
                rw [hst] at hq
                simp only [Option.map_some, Option.toList_some, List.mem_singleton] at hq
                rw [hq]
                simp only [Mate.child, hs _ _ _ _ hst]
                exact hkc

/-- What the filters of a team are for, whoever runs. -/
def Guarded (m : Works σ ω ρ) (w : ω) (l : Nat → List Past) (s : Team σ ω) : Prop :=
  s.world = s.did.foldl (worldAfter m) w ∧
  (∀ k ∈ s.mates, ∀ p ∈ l k.root, progOf p.ids p.ps p.v.toU32 ∈ k.thread.filters) ∧
  ∀ i d, .call i d ∈ s.did → ∃ r, (∃ k, s.mates[i]? = some k ∧ k.root = r) ∧
    ∀ p ∈ l r, PayloadFits p.v → ¬ Loose p.v → Allows p.ids p.ps d

theorem guarded_dies {s : Team σ ω} {w : ω} (h : Guarded m w l s) (i : Nat) (whole : Bool) : Guarded m w l (s.dies m i whole) := by
  unfold Team.dies
  cases hk : s.mates[i]? with
  | none => exact h
  | some k =>
    simp only
    split
    · exact h
    · refine ⟨by simp [List.foldl_append, ← h.1, worldAfter], ?_, ?_⟩
      · intro q hq
        obtain ⟨j, hj⟩ := List.getElem?_of_mem hq
        simp only [List.getElem?_mapIdx] at hj
        cases ha : s.mates[j]? with
        | none => rw [ha] at hj; cases hj
        | some a =>
          rw [ha] at hj
          simp only [Option.map_some, Option.some.injEq] at hj
          rw [← hj]
          split <;> exact h.2.1 a (List.mem_of_getElem? ha)
      · intro j d hd
        simp only [List.mem_append, List.mem_singleton] at hd
        rcases hd with hd | hd
        · obtain ⟨r, ⟨a, ha, hr⟩, hal⟩ := h.2.2 j d hd
          refine ⟨r, ?_, hal⟩
          simp only [List.getElem?_mapIdx, ha, Option.map_some]
          exact ⟨_, rfl, by split <;> exact hr⟩
        · cases hd

/-- A call that is executed is one that every pledge that is not loose permits. -/
theorem executed_allowed {t : Thread} {p : Past} (hp : progOf p.ids p.ps p.v.toU32 ∈ t.filters) {d : SeccompData}
    (he : enter t d = .executed) (hf : PayloadFits p.v) (hl : ¬ Loose p.v) : Allows p.ids p.ps d := by
  refine Classical.byContradiction fun hn => ?_
  have hle := action_at_most (p := p) (fs := t.filters) hp d
  rw [verdict_not hn] at hle
  have hlow : actionOnly (if d.arch = X86_64 then p.v.toU32 else 0x80000000#32) ≤ 0x7ff00000 := by
    split
    · generalize p.v = v at hf hl
      cases v with
      | Errno e =>
        unfold actionOnly
        rw [show (SeccompReturn.Errno e).toU32 = 0x00050000#32 ||| e from rfl, or_hi _ e hf]
        decide
      | Trace e =>
        unfold actionOnly
        rw [show (SeccompReturn.Trace e).toU32 = 0x7ff00000#32 ||| e from rfl, or_hi _ e hf]
        decide
      | Log => exact absurd (.inl rfl) hl
      | Allow => exact absurd (.inr rfl) hl
      | _ => decide
    · decide
  unfold enter at he
  rcases (outcome_executed _).1 he with h | h <;> rw [h] at hle <;> exact absurd (Int.le_trans hle hlow) (by decide)

theorem guarded_step {s : Team σ ω} {w : ω} (h : Guarded m w l s) (e : Event) : Guarded m w l (s.step m e) := by
  cases e with
  | kill i whole => exact guarded_dies h i whole
  | turn i =>
    simp only [Team.step]
    cases hk : s.mates[i]? with
    | none => exact h
    | some k =>
      simp only
      split
      · exact h
      · cases m.asks s.mem i with
        | none => exact h
        | some d =>
          simp only
          cases he : enter k.thread d with
          | errno n => exact h
          | trap => exact guarded_dies h i true
          | killThread => exact guarded_dies h i false
          | killProcess => exact guarded_dies h i true
          | executed =>
            have hkm := List.mem_of_getElem? hk
            have hlt := (List.getElem?_eq_some_iff.1 hk).1
            refine ⟨by simp [List.foldl_append, ← h.1, worldAfter], ?_, ?_⟩
            · intro q hq
              rcases List.mem_append.1 hq with hq | hq
              · rcases List.mem_or_eq_of_mem_set hq with hq | hq
                · exact h.2.1 q hq
                · rw [hq]
                  exact fun p hp => List.mem_append_right _ (h.2.1 k hkm p hp)
              · cases hst : m.starts s.world i d with
                | none => rw [hst] at hq; cases hq
                | some n =>
                  rw [hst] at hq
                  simp only [Option.map_some, Option.toList_some, List.mem_singleton] at hq
                  rw [hq]
                  exact fun p hp => List.mem_append_right _ (h.2.1 k hkm p hp)
            · have keep : ∀ (j : Nat) (a : Mate), s.mates[j]? = some a → ∀ (b : Mate) (more : List Mate), b.root = k.root →
                  ∃ q, (s.mates.set i b ++ more)[j]? = some q ∧ q.root = a.root := by
                intro j a ha b more hb
                have hj := (List.getElem?_eq_some_iff.1 ha).1
                rw [List.getElem?_append_left (by simpa using hj), List.getElem?_set]
                by_cases hij : i = j
                · subst hij
                  rw [if_pos rfl, if_pos hj]
                  rw [hk] at ha; cases ha
                  exact ⟨_, rfl, hb⟩
                · rw [if_neg hij]; exact ⟨a, ha, rfl⟩
              intro j d' hd
              simp only [List.mem_append, List.mem_singleton] at hd
              rcases hd with hd | hd
              · obtain ⟨r, ⟨a, ha, hr⟩, hal⟩ := h.2.2 j d' hd
                refine ⟨r, ?_, hal⟩
                rw [← hr]
                exact keep j a ha _ _ rfl
              · cases hd
                refine ⟨k.root, ?_, fun p hp hf hl => executed_allowed (h.2.1 k hkm p hp) he hf hl⟩
                exact keep i k hk _ _ rfl

/-- Two threads, of which one has the filters of pledges and the other none. -/
def BareRel (l0 : List Past) (k k' : Mate) : Prop :=
  k'.proc = k.proc ∧ k'.root = k.root ∧ k'.ended = k.ended ∧ k.thread.filters = [] ∧
    k'.thread.filters = l0.map fun p => progOf p.ids p.ps p.v.toU32

def BareTeams (l0 : List Past) (s s' : Team σ ω) : Prop :=
  s'.mem = s.mem ∧ s'.world = s.world ∧ s'.mates.length = s.mates.length ∧
    ∀ (i : Nat) (k k' : Mate), s.mates[i]? = some k → s'.mates[i]? = some k' → BareRel l0 k k'

theorem BareTeams.mate {l0 : List Past} {s s' : Team σ ω} (h : BareTeams l0 s s') {i : Nat} {k : Mate} (hk : s.mates[i]? = some k) :
    ∃ k', s'.mates[i]? = some k' ∧ BareRel l0 k k' := by
  have hi : i < s'.mates.length := by
    rw [h.2.2.1]; exact (List.getElem?_eq_some_iff.1 hk).1
  exact ⟨_, List.getElem?_eq_getElem hi, h.2.2.2 i k _ hk (List.getElem?_eq_getElem hi)⟩

theorem BareTeams.none {l0 : List Past} {s s' : Team σ ω} (h : BareTeams l0 s s') {i : Nat} (hk : s.mates[i]? = none) :
    s'.mates[i]? = none := by
  rw [List.getElem?_eq_none_iff] at hk ⊢
  rw [h.2.2.1]; exact hk

theorem BareTeams.shape {l0 : List Past} {s s' : Team σ ω} (h : BareTeams l0 s s') :
    s'.mates.map (fun k => (k.proc, k.root, k.ended)) = s.mates.map fun k => (k.proc, k.root, k.ended) := by
  refine List.ext_getElem? fun i => ?_
  rw [List.getElem?_map, List.getElem?_map]
  cases hk : s.mates[i]? with
  | none => rw [h.none hk]
  | some k =>
    obtain ⟨k', hk', hr⟩ := h.mate hk
    rw [hk']
    simp only [Option.map_some, hr.1, hr.2.1, hr.2.2.1]

theorem BareTeams.dies {l0 : List Past} {s s' : Team σ ω} (h : BareTeams l0 s s') (e i : Nat) (whole : Bool) :
    BareTeams l0 (s.dies (refusingTeam m l0 e) i whole) (s'.dies m i whole) := by
  unfold Team.dies
  cases hk : s.mates[i]? with
  | none => rw [h.none hk]; exact h
  | some k =>
    obtain ⟨k', hk', hr⟩ := h.mate hk
    rw [hk']
    simp only [hr.2.2.1]
    split
    · exact h
    · refine ⟨h.1, by simp only [h.2.1, refusingTeam], by simp [h.2.2.1], ?_⟩
      intro j q q' hq hq'
      simp only [List.getElem?_mapIdx] at hq hq'
      cases ha : s.mates[j]? with
      | none => rw [ha] at hq; cases hq
      | some a =>
        obtain ⟨a', ha', hra⟩ := h.mate ha
        rw [ha] at hq
        rw [ha'] at hq'
        simp only [Option.map_some, Option.some.injEq] at hq hq'
        rw [hr.1, hra.1] at hq'
        subst hq hq'
        split
        · exact ⟨by first | rfl | exact hra.1, hra.2.1, rfl, hra.2.2.2⟩
        · exact hra

theorem BareTeams.step {l0 : List Past} {s s' : Team σ ω} (h : BareTeams l0 s s') {e : BitVec 32} (he : e.toNat ≤ 4095)
    (hv : ∀ p ∈ l0, p.v = .Errno e) (hn : ∀ s i d, m.asks s i = some d → d.arch = X86_64) (hi : ∀ w i d, m.installs w i d = []) (ev : Event) :
    BareTeams l0 (s.step (refusingTeam m l0 e.toNat) ev) (s'.step m ev) := by
  cases ev with
  | kill i whole => exact h.dies _ i whole
  | turn i =>
    simp only [Team.step]
    cases hk : s.mates[i]? with
    | none => rw [h.none hk]; exact h
    | some k =>
      obtain ⟨k', hk', hr⟩ := h.mate hk
      rw [hk']
      simp only [hr.2.2.1]
      split
      · exact h
      · rw [h.1]
        simp only [refusingTeam]
        cases hq : m.asks s.mem i with
        | none => exact h
        | some d =>
          have hx : enter k.thread d = .executed := by unfold enter; rw [hr.2.2.2.1]; show outcome 0x7fff0000#32 = _; decide
          simp only
          rw [hx]
          by_cases hal : AllAllow l0 d
          · rw [enter_allowed ((hasPledged_iff _ _).2 hr.2.2.2.2) hal]
            simp only [if_pos hal, h.2.1, hi, List.nil_append]
            refine ⟨rfl, rfl, by cases m.starts s.world i d <;> simp [h.2.2.1], ?_⟩
            intro j q q' hq hq'
            simp only [List.getElem?_append, List.length_set, List.getElem?_set] at hq hq'
            rw [h.2.2.1] at hq'
            split at hq
            · rename_i hj
              rw [if_pos hj] at hq'
              split at hq
              · rename_i hij
                subst hij
                rw [if_pos rfl] at hq'
                rw [if_pos hj] at hq hq'
                cases hq; cases hq'
                exact ⟨hr.1, hr.2.1, by first | rfl | exact hr.2.2.1, hr.2.2.2⟩
              · rename_i hij
                rw [if_neg hij] at hq'
                exact h.2.2.2 j q q' hq hq'
            · rename_i hj
              rw [if_neg hj] at hq'
              cases hc : m.starts s.world i d with
              | none => rw [hc] at hq; simp at hq
              | some c =>
                rw [hc] at hq hq'
                simp only [Option.map_some, Option.toList_some] at hq hq'
                cases hx : j - s.mates.length with
                | succ x => rw [hx] at hq; simp at hq
                | zero =>
                  rw [hx] at hq hq'
                  simp only [List.getElem?_cons_zero, Option.some.injEq] at hq hq'
                  subst hq hq'
                  refine ⟨?_, hr.2.1, rfl, hr.2.2.2⟩
                  simp only [Mate.child, hr.1]
          · rw [enter_errno l0 he hv hr.2.2.2.2 (hn _ _ _ hq) hal]
            simp only [if_neg hal, hi, List.nil_append, Option.map_none, Option.toList_none, List.append_nil]
            refine ⟨rfl, h.2.1, by simp [h.2.2.1], ?_⟩
            intro j q q' hq hq'
            simp only [List.getElem?_set] at hq
            split at hq
            · rename_i hij
              subst hij
              split at hq
              · cases hq
                rw [show s'.mates[i]? = some q' from hq'] at hk'
                cases hk'
                exact ⟨hr.1, hr.2.1, by first | rfl | exact hr.2.2.1, hr.2.2.2⟩
              · cases hq
            · exact h.2.2.2 j q q' hq hq'

end

/-! ## An instance used beside the theorems -/

/-- A thread that starts another in its process; that one writes, and then executes a program. The world counts. -/
def works1 : Works Nat Nat Nat where
  asks := fun x i =>
    if x = 0 ∧ i = 0 then some calls1.clone
    else if x = 1 ∧ i = 1 then some (mkCall 1 [1, 4096, 5])
    else if x = 2 ∧ i = 1 then some (mkCall 59 [4096, 0, 0])
    else none
  serves := fun w _ d => (w + d.nr.toNat, 0)
  installs := fun _ _ _ => []
  starts := fun _ _ d => if d.nr = 56 then some (false, 100, 101) else none
  buries := fun w _ _ => w + 1000
  error := fun n => n
  goesOn := fun x _ r => if r = 0 then x + 1 else 100

def mates1 (t : Thread) : List Mate := [⟨0, 0, t, false⟩]

theorem team1 (ps : List Promise) (v : SeccompReturn) : PledgedTeam (fun _ => past1 ps v) (mates1 thread0) (mates1 (pledged1 ps v)) := by
  refine ⟨rfl, fun i k hk => ?_⟩
  cases i with
  | zero => cases hk; exact ⟨rfl, _, rfl, rfl, rfl, rfl, atop1 ps v⟩
  | succ i => simp [mates1] at hk

/-- The beginning of `works1` without pledges. -/
theorem begin1 : ((Team.new 0 0 (mates1 thread0)).run works1 [.turn 0]).mem = 1 ∧
    ((Team.new 0 0 (mates1 thread0)).run works1 [.turn 0, .turn 1]).mem = 2 ∧
    ((Team.new 0 0 (mates1 thread0)).run works1 [.turn 0, .turn 1]).world = 57 ∧
    ((Team.new 0 0 (mates1 thread0)).run works1 [.turn 0, .turn 1]).mates =
      [⟨0, 0, thread0, false⟩, ⟨0, 0, { thread0 with pid := 100, tid := 101 }, false⟩] := by
  refine ⟨?_, ?_, ?_, ?_⟩ <;>
    simp [Team.run, Team.step, Team.new, mates1, works1, calls1, mkCall, Mate.child, enter, runFilters, thread0,
      show outcome 2147418112#32 = .executed by decide]

theorem clone1 (ids : Ids) : Allows ids [.StdIO] calls1.clone := (needs_stdio calls1 proper1 ids [.StdIO] (by simp)).2.2.2.1

/-- What it asks for first is in StdIO. -/
theorem first1 (v : SeccompReturn) (pre : List Event) (i : Nat) (post : List Event) (he : [.turn 0, .turn 1] = pre ++ .turn i :: post)
    (r : Nat) (d : SeccompData) (hw : Wants works1 ((Team.new 0 0 (mates1 thread0)).run works1 pre) i r d) :
    AllAllow (past1 [.StdIO] v) d := by
  intro p hp
  rw [List.mem_singleton.1 hp]
  obtain ⟨_, _, _, _, hq⟩ := hw
  match pre, he with
  | [], he =>
    cases he
    have hq : some calls1.clone = some d := hq
    cases hq
    exact clone1 _
  | [_], he =>
    cases he
    rw [begin1.1] at hq
    have hq : some (mkCall 1 [1, 4096, 5]) = some d := hq
    cases hq
    exact write1 _
  | _ :: _ :: _, he => simp at he

section
variable {σ ω ρ : Type} (m : Works σ ω ρ) (x : σ) (w : ω) (l : Nat → List Past) (ks ks' : List Mate) (hl : PledgedTeam l ks ks')
include hl

/-- C120: threads and processes that, left alone under a schedule, make only calls that their pledges permit, run under the pledges as they
would without. A thread's pledges are those of the thread of the beginning that it stems from. -/
theorem C120_transparent (es : List Event)
    (h : ∀ pre i post, es = pre ++ .turn i :: post → ∀ r d, Wants m ((Team.new x w ks).run m pre) i r d → AllAllow (l r) d) :
    AlikeTeams ((Team.new x w ks').run m es) ((Team.new x w ks).run m es) := by
  refine TeamRel.alike (l := l) ?_
  have key : ∀ (s s' : Team σ ω), TeamRel l s s' →
      (∀ pre i post, es = pre ++ .turn i :: post → ∀ r d, Wants m (s.run m pre) i r d → AllAllow (l r) d) →
      TeamRel l (s.run m es) (s'.run m es) := by
    clear h
    induction es with
    | nil => intro s s' h _; exact h
    | cons e es ih =>
      intro s s' h hw
      cases e with
      | kill i whole => exact ih _ _ (h.dies i whole) fun pre j post he r d hh => hw (.kill i whole :: pre) j post (by rw [he]; rfl) r d hh
      | turn i => exact ih _ _ (h.turn i (hw [] i es rfl)) fun pre j post he r d hh => hw (.turn i :: pre) j post (by rw [he]; rfl) r d hh
  exact key _ _ (pledged_rel hl x w) h

omit hl in
/-- Not vacuous: the first two calls of `works1` under StdIO, the second by the thread that the first starts. -/
example := C120_transparent works1 0 0 _ _ _ (team1 [.StdIO] .KillProcess) [.turn 0, .turn 1] (first1 _)

/-- C120: pledges whose violations kill add nothing to what threads and processes can do: under any schedule all is as it would be without
the pledges if the threads that are about to make calls that are not permitted were killed from outside. -/
theorem C120_nothing_new (hv : ∀ i, ∀ p ∈ l i, Deadly p.v) (es : List Event) :
    ∃ es', Cuts m l (.new x w ks) es es' ∧ AlikeTeams ((Team.new x w ks').run m es) ((Team.new x w ks).run m es') := by
  obtain ⟨es', h1, h2⟩ := cuts_run (m := m) (pledged_rel hl x w) hv es
  exact ⟨es', h1, h2.alike⟩

omit hl in
/-- Not vacuous: `works1` under StdIO with any schedule. -/
example (es : List Event) := C120_nothing_new works1 0 0 _ _ _ (team1 [.StdIO] .KillThread) (by simp [past1, Deadly]) es

/-- C120: if the threads are of one process and start no other, and all violations kill the process, then the process does under a schedule
what it would do without the pledges, up to the first call that is not permitted, and nothing after it: all threads are killed there. -/
theorem C120_stopped (hv : ∀ i, ∀ p ∈ l i, p.v = .KillProcess) (c : Nat) (hc : ∀ k ∈ ks, k.proc = c)
    (hs : ∀ w i d n, m.starts w i d = some n → n.1 = false) (es : List Event) :
    (AlikeTeams ((Team.new x w ks').run m es) ((Team.new x w ks).run m es) ∧
      ∀ pre i post, es = pre ++ .turn i :: post → ∀ r d, Wants m ((Team.new x w ks).run m pre) i r d → AllAllow (l r) d) ∨
    ∃ pre i post r d, es = pre ++ .turn i :: post ∧ Wants m ((Team.new x w ks).run m pre) i r d ∧ ¬ AllAllow (l r) d ∧
      (∀ pre' j post', pre = pre' ++ .turn j :: post' → ∀ r d, Wants m ((Team.new x w ks).run m pre') j r d → AllAllow (l r) d) ∧
      AlikeTeams ((Team.new x w ks').run m es) ((Team.new x w ks).run m (pre ++ [.kill i true])) ∧
      ∀ k ∈ ((Team.new x w ks').run m es).mates, k.ended = true := by
  have key : ∀ (s s' : Team σ ω), TeamRel l s s' → (∀ k ∈ s.mates, k.proc = c) →
      (AlikeTeams (s'.run m es) (s.run m es) ∧
        ∀ pre i post, es = pre ++ .turn i :: post → ∀ r d, Wants m (s.run m pre) i r d → AllAllow (l r) d) ∨
      ∃ pre i post r d, es = pre ++ .turn i :: post ∧ Wants m (s.run m pre) i r d ∧ ¬ AllAllow (l r) d ∧
        (∀ pre' j post', pre = pre' ++ .turn j :: post' → ∀ r d, Wants m (s.run m pre') j r d → AllAllow (l r) d) ∧
        AlikeTeams (s'.run m es) (s.run m (pre ++ [.kill i true])) ∧ ∀ k ∈ (s'.run m es).mates, k.ended = true := by
    induction es with
    | nil => exact fun s s' h _ => .inl ⟨h.alike, fun pre i post he => by simp at he⟩
    | cons e es ih =>
      intro s s' h hp
      by_cases hw : ∀ i, e = .turn i → ∀ r d, Wants m s i r d → AllAllow (l r) d
      · have hr : TeamRel l (s.step m e) (s'.step m e) := by
          cases e with
          | kill i whole => exact h.dies i whole
          | turn i => exact h.turn i (hw i rfl)
        have shift : ∀ pre, (∀ pre' j post', pre = pre' ++ .turn j :: post' → ∀ r d, Wants m ((s.step m e).run m pre') j r d → AllAllow (l r) d) →
            ∀ pre' j post', e :: pre = pre' ++ .turn j :: post' → ∀ r d, Wants m (s.run m pre') j r d → AllAllow (l r) d := by
          intro pre hh pre' j post' he
          cases pre' with
          | nil => cases he; exact hw j rfl
          | cons e' pre' =>
            simp only [List.cons_append, List.cons.injEq] at he
            obtain ⟨rfl, he⟩ := he
            exact hh pre' j post' he
        rcases ih _ _ hr (step_proc hs hp e) with ⟨h1, h2⟩ | ⟨pre, i, post, r, d, h1, h2, h3, h4, h5, h6⟩
        · exact .inl ⟨h1, shift es h2⟩
        · exact .inr ⟨e :: pre, i, post, r, d, by rw [h1]; rfl, h2, h3, shift pre h4, h5, h6⟩
      · have : ∃ i, e = .turn i ∧ ∃ r d, Wants m s i r d ∧ ¬ AllAllow (l r) d := Classical.byContradiction fun hno =>
          hw fun i he r d hh => Classical.byContradiction fun hn => hno ⟨i, he, r, d, hh, hn⟩
        obtain ⟨i, rfl, r, d, hw, hn⟩ := this
        obtain ⟨whole, h1, h2⟩ := h.cut hw hn fun p hp => .inl (hv r p hp)
        rw [h1 (hv r)] at h2
        obtain ⟨k, hk, he, _, _⟩ := id hw
        have hall := dies_all (m := m) hp hk he
        have hall' : ∀ q ∈ (s'.step m (.turn i)).mates, q.ended = true := by
          intro q hq
          obtain ⟨j, hj⟩ := List.getElem?_of_mem hq
          have hlt : j < (s.step m (.kill i true)).mates.length := h2.2.2.2.1 ▸ (List.getElem?_eq_some_iff.1 hj).1
          rw [(h2.2.2.2.2 j _ q (List.getElem?_eq_getElem hlt) hj).2.2.1]
          exact hall _ (List.getElem_mem hlt)
        have hrun : s'.run m (.turn i :: es) = s'.step m (.turn i) := ended_run hall' es
        rw [hrun]
        exact .inr ⟨[], i, es, r, d, rfl, hw, hn, fun pre' j post' he => by simp at he, h2.alike, hall'⟩
  exact key _ _ (pledged_rel hl x w) hc

omit hl in
/-- Not vacuous: under StdIO the threads of `works1` start, write and die together when one of them executes. -/
example : ((Team.new 0 0 (mates1 (pledged1 [.StdIO] .KillProcess))).run works1 [.turn 0, .turn 1, .turn 1]).world = 1057 ∧
    ∀ k ∈ ((Team.new 0 0 (mates1 (pledged1 [.StdIO] .KillProcess))).run works1 [.turn 0, .turn 1, .turn 1]).mates, k.ended = true := by
  have hno : ¬ AllAllow (past1 [.StdIO] .KillProcess) (mkCall 59 [4096, 0, 0]) := fun h => exec1 _ (h _ (List.mem_singleton.2 rfl))
  have hwant : Wants works1 ((Team.new 0 0 (mates1 thread0)).run works1 [.turn 0, .turn 1]) 1 0 (mkCall 59 [4096, 0, 0]) := by
    refine ⟨_, by rw [begin1.2.2.2]; rfl, rfl, rfl, ?_⟩
    rw [begin1.2.1]; rfl
  rcases C120_stopped works1 0 0 _ _ _ (team1 [.StdIO] .KillProcess) (by simp [past1]) 0 (by simp [mates1]) (by
      intro w i d n h; simp only [works1] at h; split at h <;> cases h; rfl) [.turn 0, .turn 1, .turn 1] with
    ⟨_, h⟩ | ⟨pre, i, post, r, d, h1, h2, h3, _, h4, h5⟩
  · exact absurd (h [.turn 0, .turn 1] 1 [] rfl 0 _ hwant) hno
  · refine ⟨?_, h5⟩
    rw [h4.2.1]
    match pre, h1 with
    | [], h1 => cases h1; exact absurd (first1 _ [] 0 [.turn 1] rfl r d h2) h3
    | [_], h1 => cases h1; exact absurd (first1 _ [.turn 0] 1 [] rfl r d h2) h3
    | [_, _], h1 =>
      cases h1
      show (((Team.new 0 0 (mates1 thread0)).run works1 [.turn 0, .turn 1]).dies works1 1 true).world = 1057
      unfold Team.dies
      rw [begin1.2.2.2, begin1.2.2.1]
      rfl
    | _ :: _ :: _ :: _, h1 => simp at h1

/-- C120: whatever happens, all that is done to the world is done by deaths and by calls, and every call that is done for a thread is one that
each pledge permits, unless its violation is to log or to allow, of the thread of the beginning that it stems from. So pledges are not
escaped by starting threads or processes. -/
theorem C120_mediated (es : List Event) :
    ((Team.new x w ks').run m es).world = ((Team.new x w ks').run m es).did.foldl (worldAfter m) w ∧
    ∀ i d, .call i d ∈ ((Team.new x w ks').run m es).did →
      ∃ r, (∃ k, ((Team.new x w ks').run m es).mates[i]? = some k ∧ k.root = r) ∧
        ∀ p ∈ l r, PayloadFits p.v → ¬ Loose p.v → Allows p.ids p.ps d := by
  have key : ∀ s : Team σ ω, Guarded m w l s → Guarded m w l (s.run m es) := by
    induction es with
    | nil => exact fun s h => h
    | cons e es ih => exact fun s h => ih _ (guarded_step h e)
  have h := key (Team.new x w ks') ⟨rfl, fun k' hk' p hp => by
    obtain ⟨i, hi⟩ := List.getElem?_of_mem (show k' ∈ ks' from hk')
    have hlt : i < ks.length := hl.1 ▸ (List.getElem?_eq_some_iff.1 hi).1
    obtain ⟨_, k'', h2, _, h4, _, h6⟩ := hl.2 i _ (List.getElem?_eq_getElem hlt)
    rw [hi] at h2; cases h2
    rw [(atop_iff _ _ _).1 h6]
    rw [h4] at hp
    exact List.mem_append_left _ (List.mem_map.2 ⟨p, hp, rfl⟩), fun i d hd => by cases hd⟩
  exact ⟨h.1, h.2.2⟩

omit hl in
/-- Not vacuous: any schedule of `works1` under StdIO with an error. -/
example (es : List Event) := C120_mediated works1 0 0 _ _ _ (team1 [.StdIO] (.Errno 1)) es

omit hl in
/-- C120: to threads and processes that make native calls and install no filters, all under the same pledges with the violation `Errno(e)`,
these look like a system that fails the calls that not all of them permit. -/
theorem C120_errors (l0 : List Past) (e : BitVec 32) (he : e.toNat ≤ 4095) (hv : ∀ p ∈ l0, p.v = .Errno e)
    (hl : PledgedTeam (fun _ => l0) ks ks') (hk : ∀ k ∈ ks, k.thread.filters = [])
    (hn : ∀ s i d, m.asks s i = some d → d.arch = X86_64) (hi : ∀ w i d, m.installs w i d = []) (es : List Event) :
    ((Team.new x w ks').run m es).mem = ((Team.new x w ks).run (refusingTeam m l0 e.toNat) es).mem ∧
    ((Team.new x w ks').run m es).world = ((Team.new x w ks).run (refusingTeam m l0 e.toNat) es).world ∧
    ((Team.new x w ks').run m es).mates.map (fun k => (k.proc, k.root, k.ended)) =
      ((Team.new x w ks).run (refusingTeam m l0 e.toNat) es).mates.map fun k => (k.proc, k.root, k.ended) := by
  have key : ∀ s s' : Team σ ω, BareTeams l0 s s' → BareTeams l0 (s.run (refusingTeam m l0 e.toNat) es) (s'.run m es) := by
    induction es with
    | nil => exact fun s s' h => h
    | cons ev es ih => exact fun s s' h => ih _ _ (h.step he hv hn hi ev)
  have h := key (Team.new x w ks) (Team.new x w ks') ⟨rfl, rfl, hl.1, fun i k k' hik hik' => by
    obtain ⟨h1, k'', h2, h3, h4, h5, h6⟩ := hl.2 i k hik
    rw [show ks'[i]? = some k' from hik'] at h2
    cases h2
    have h7 := hk k (List.mem_of_getElem? hik)
    exact ⟨h3, h4.trans h1.symm, h5, h7, by rw [(atop_iff _ _ _).1 h6, h7, List.append_nil]⟩⟩
  exact ⟨h.1, h.2.1, h.shape⟩

/-- Not vacuous: `works1` under StdIO with the error EPERM. -/
example (es : List Event) := C120_errors works1 0 0 (mates1 thread0) (mates1 (pledged1 [.StdIO] (.Errno 1))) (past1 [.StdIO] (.Errno 1)) 1
  (by decide) (by simp [past1]) (team1 [.StdIO] (.Errno 1)) (by simp [mates1, thread0]) (fun x i d h => by
    simp only [works1] at h
    split at h
    · cases h; rfl
    · split at h
      · cases h; rfl
      · split at h <;> cases h; rfl) (fun _ _ _ => rfl) es

omit hl in
/-- C120: what `pledge` returns Ok for in a thread of a process with others: from then on all is as it would have been without, if that thread
or one that it starts is killed with its process when it is about to make a call that is not promised. The other threads are not bound. -/
theorem C120_pledge (hr : ∀ (j : Nat) (k : Mate), ks[j]? = some k → k.root = j) (i : Nat) (k : Mate) (hk : ks[i]? = some k) (b : Build) (env : Env)
    (l0 : List Past) (h0 : HasPledged k.thread l0) (hv : ∀ p ∈ l0, p.v = .KillProcess) (ps : List Promise)
    (hok : (pledge b env k.thread ps).2 = .ok) (es : List Event) :
    ∃ es', Cuts m (fun j => if j = i then [⟨⟨k.thread.pid, k.thread.tid⟩, ps, .KillProcess⟩] else []) (.new x w ks) es es' ∧
      AlikeTeams ((Team.new x w (ks.set i { k with thread := (pledge b env k.thread ps).1 })).run m es) ((Team.new x w ks).run m es') := by
  obtain ⟨prog, hp, hf, _⟩ := C49_ok_means_enforced_partial b env k.thread l0 ps .KillProcess h0
    (fun p hp => .inr (by rw [hv p hp]; decide)) hok
  have hat : Atop [⟨⟨k.thread.pid, k.thread.tid⟩, ps, .KillProcess⟩] k.thread (pledge b env k.thread ps).1 := by
    rw [atop_iff]
    rw [promisesToProg_eq] at hp
    injection hp with hp
    subst hp
    exact hf
  have hlt := (List.getElem?_eq_some_iff.1 hk).1
  refine C120_nothing_new m x w _ ks _ ⟨by simp, fun j q hq => ⟨hr j q hq, ?_⟩⟩ (fun j p hp => ?_) es
  · by_cases hij : i = j
    · subst hij
      rw [hk] at hq; cases hq
      exact ⟨{ k with thread := (pledge b env k.thread ps).1 }, by simp [hlt], rfl, hr i k hk, rfl, by simpa using hat⟩
    · exact ⟨q, by simp [hij, hq], rfl, hr j q hq, rfl, by simp [if_neg (Ne.symm hij), atop_iff]⟩
  · split at hp
    · rw [List.mem_singleton.1 hp]; exact .inl rfl
    · cases hp

/-- Not vacuous: the first pledge of a process. -/
example (es : List Event) := C120_pledge works1 0 0 (mates1 thread0) (fun j k hk => by
  cases j with
  | zero => cases hk; rfl
  | succ j => simp [mates1] at hk) 0 _ rfl ⟨true⟩ calm [] ((hasPledged_iff _ _).2 rfl) (by simp) [.StdIO] (by
    obtain ⟨_, _, h⟩ := C49_first_pledge ⟨true⟩ calm thread0 rfl [.StdIO] .KillProcess (by decide) rfl rfl
    exact congrArg Prod.snd h) es

end

end Props
