import Verif.Spec.Traced
import Verif.Props.Grow

/-!
# C105: what a tracer can do to a pledged thread
-/
set_option autoImplicit false

namespace Props
open Pledge Bpfvm Spec Kernel

/-- SECCOMP_RET_TRACE as the kernel compares actions. -/
abbrev TR : Int := 0x7ff00000

theorem wantsTrace_iff (r : BitVec 32) : wantsTrace r = true ↔ actionOnly r = TR := by
  have e : TR = (0x7ff00000#32).toInt := by decide
  rw [e, action_eq_iff]
  simp [wantsTrace]

theorem action_of (c : BitVec 32) (n : Int) (h : (c &&& 0xffff0000#32).toInt = n) : actionOnly c = n := h

theorem action_firm {v : SeccompReturn} (h : Firm v) : actionOnly v.toU32 < TR := by
  cases v with
  | Errno e =>
    unfold actionOnly
    rw [show (SeccompReturn.Errno e).toU32 = 0x00050000#32 ||| e from rfl, or_hi _ e h]
    decide
  | KillProcess => decide
  | KillThread => decide
  | Trap => decide
  | Trace _ => cases h
  | Log => cases h
  | Allow => cases h

theorem action_trace {v : SeccompReturn} {m : BitVec 16} (h : AsksTracer v m) : actionOnly v.toU32 = TR ∧ v.toU32.setWidth 16 = m := by
  obtain ⟨e, rfl, he, rfl⟩ := h
  constructor
  · unfold actionOnly
    rw [show (SeccompReturn.Trace e).toU32 = 0x7ff00000#32 ||| e from rfl, or_hi _ e he]
    decide
  · rw [show (SeccompReturn.Trace e).toU32 = 0x7ff00000#32 ||| e from rfl, BitVec.setWidth_or]
    simp

theorem action_loose {v : SeccompReturn} (h : Loose v) : actionOnly v.toU32 = 0x7ffc0000 ∨ actionOnly v.toU32 = 0x7fff0000 := by
  rcases h with rfl | rfl
  · left; decide
  · right; decide

theorem kinds {v : SeccompReturn} (h : PayloadFits v) : Firm v ∨ (∃ m, AsksTracer v m) ∨ Loose v := by
  cases v with
  | Errno e => exact .inl h
  | KillProcess => exact .inl trivial
  | KillThread => exact .inl trivial
  | Trap => exact .inl trivial
  | Trace e => exact .inr (.inl ⟨_, e, rfl, h, rfl⟩)
  | Log => exact .inr (.inr (.inl rfl))
  | Allow => exact .inr (.inr (.inr rfl))

/-- The verdict of a pledge: three cases. -/
theorem verdict_three (ids : Ids) (ps : List Promise) (v : BitVec 32) (d : SeccompData) :
    (Allows ids ps d ∧ verdict ids ps v d = 0x7fff0000) ∨ (Denies ids ps d ∧ verdict ids ps v d = v) ∨
      (d.arch ≠ X86_64 ∧ verdict ids ps v d = 0x80000000) := by
  unfold verdict
  by_cases ha : d.arch = X86_64
  · by_cases h : Allowed ids ps d
    · left; rw [allows_iff]; simp [ha, h]
    · right; left; rw [denies_iff]; simp [ha, h]
  · right; right; simp [ha]

theorem not_both {ids : Ids} {ps : List Promise} {d : SeccompData} (h1 : Allows ids ps d) (h2 : Denies ids ps d) : False := by
  rw [allows_iff] at h1
  rw [denies_iff] at h2
  exact h2.2 h1.2

/-- The action of the stack is at least `n` (not above ALLOW) exactly if all are. -/
theorem stack_ge {t : Thread} {l : List Past} (h : HasPledged t l) (d : SeccompData) (n : Int) (hn : n ≤ 0x7fff0000) :
    n ≤ actionOnly (runFilters t.filters d) ↔ ∀ p ∈ l, n ≤ actionOnly (verdict p.ids p.ps p.v.toU32 d) := by
  rw [runFilters_pledged h]
  have hle := combine_le 0x7fff0000#32 (l.map fun p => verdict p.ids p.ps p.v.toU32 d)
  constructor
  · intro hn p hp
    have := hle.2 _ (List.mem_map_of_mem hp)
    omega
  · intro hall
    rcases combine_mem 0x7fff0000#32 (l.map fun p => verdict p.ids p.ps p.v.toU32 d) with hm | hm
    · rw [hm]; have : actionOnly 0x7fff0000#32 = 0x7fff0000 := by decide
      omega
    · obtain ⟨p, hp, he⟩ := List.mem_map.1 hm
      rw [← he]; exact hall p hp

/-- C105: whatever the tracer does, a call that is executed is permitted by every pledge of the thread whose violation is KillProcess,
KillThread, Trap or Errno. -/
theorem C105_firm (t : Thread) (l : List Past) (hl : HasPledged t l) (d d' : SeccompData) (o : Order)
    (he : enterTraced t d o = .executes d') (p : Past) (hp : p ∈ l) (hf : Firm p.v) : Allows p.ids p.ps d' := by
  have hexec : ∀ x, (enter t x).ending x = .executes d' → x = d' ∧ TR ≤ actionOnly (runFilters t.filters x) := by
    intro x hx
    unfold enter at hx
    cases ho : outcome (runFilters t.filters x) <;> rw [ho] at hx <;> simp only [Outcome.ending, Ending.executes.injEq, reduceCtorEq] at hx
    refine ⟨hx, ?_⟩
    rcases (outcome_executed _).1 ho with h | h <;> rw [h] <;> decide
  have key : TR ≤ actionOnly (runFilters t.filters d') := by
    unfold enterTraced at he
    split at he
    · cases o with
      | skip v => cases he
      | go x =>
        simp only at he
        split at he
        · rename_i h
          cases he
          rw [(wantsTrace_iff _).1 h]
          exact Int.le_refl _
        · obtain ⟨rfl, h⟩ := hexec x he
          exact h
    · obtain ⟨rfl, h⟩ := hexec d he
      exact h
  have := (stack_ge hl d' TR (by decide)).1 key p hp
  rcases verdict_three p.ids p.ps p.v.toU32 d' with ⟨h, _⟩ | ⟨_, h⟩ | ⟨_, h⟩
  · exact h
  · rw [h] at this
    have := action_firm hf
    omega
  · rw [h] at this
    exact absurd this (by decide)

theorem first_split {α : Type _} (P : α → Prop) (l : List α) (h : ∃ p ∈ l, P p) : ∃ a p b, l = a ++ p :: b ∧ P p ∧ ∀ r ∈ a, ¬ P r := by
  induction l with
  | nil => obtain ⟨p, hp, _⟩ := h; cases hp
  | cons x l ih =>
    by_cases hx : P x
    · exact ⟨[], x, l, rfl, hx, by simp⟩
    · obtain ⟨a, p, b, h1, h2, h3⟩ := ih (by
        obtain ⟨p, hp, hpp⟩ := h
        rcases List.mem_cons.1 hp with rfl | hp
        · exact absurd hpp hx
        · exact ⟨p, hp, hpp⟩)
      refine ⟨x :: a, p, b, by rw [h1]; rfl, h2, ?_⟩
      intro r hr
      rcases List.mem_cons.1 hr with rfl | hr
      · exact hx
      · exact h3 r hr

/-- The first of the lowest values is the verdict. -/
theorem combine_earliest (init c : BitVec 32) (a b : List (BitVec 32)) (hi : actionOnly c < actionOnly init)
    (ha : ∀ x ∈ a, actionOnly c < actionOnly x) (hb : ∀ x ∈ b, actionOnly c ≤ actionOnly x) : combine init (a ++ c :: b) = c := by
  have tail : ∀ (b : List (BitVec 32)), (∀ x ∈ b, actionOnly c ≤ actionOnly x) → combine c b = c := by
    intro b
    induction b with
    | nil => intro _; rfl
    | cons x b ih =>
      intro h
      have := h x (by simp)
      simp only [combine, List.foldl_cons] at ih ⊢
      rw [if_neg (by omega)]
      exact ih fun y hy => h y (by simp [hy])
  have h1 : actionOnly c < actionOnly (combine init a) := by
    rcases combine_mem init a with h | h
    · rw [h]; exact hi
    · exact ha _ h
  rw [combine_append]
  show combine (if actionOnly c < actionOnly (combine init a) then c else combine init a) b = c
  rw [if_pos h1]
  exact tail b hb

theorem tells_action {p : Past} {d : SeccompData} {m : BitVec 16} (h : Tells p d m) :
    actionOnly (verdict p.ids p.ps p.v.toU32 d) = TR ∧ (verdict p.ids p.ps p.v.toU32 d).setWidth 16 = m := by
  have := h.1 ⟨false⟩ p.v
  rw [filterVerdict_eq, Option.some.injEq] at this
  rw [this]
  exact action_trace h.2

theorem passes_action {p : Past} {d : SeccompData} (h : Passes p d) : TR < actionOnly (verdict p.ids p.ps p.v.toU32 d) := by
  rcases h with h | ⟨h, hv⟩
  · have := h ⟨false⟩ p.v
    rw [filterVerdict_eq, Option.some.injEq] at this
    rw [this]; decide
  · have := h ⟨false⟩ p.v
    rw [filterVerdict_eq, Option.some.injEq] at this
    rw [this]
    rcases action_loose hv with h | h <;> rw [h] <;> decide

theorem action_passes {p : Past} {d : SeccompData} (hv : PayloadFits p.v) (h : TR ≤ actionOnly (verdict p.ids p.ps p.v.toU32 d)) :
    Passes p d ∨ ∃ m, Tells p d m := by
  rcases verdict_three p.ids p.ps p.v.toU32 d with ⟨h1, _⟩ | ⟨h1, h2⟩ | ⟨_, h2⟩
  · exact .inl (.inl h1)
  · rw [h2] at h
    rcases kinds hv with hk | ⟨m, hk⟩ | hk
    · have := action_firm hk; omega
    · exact .inr ⟨m, h1, hk⟩
    · exact .inl (.inr ⟨h1, hk⟩)
  · rw [h2] at h
    exact absurd h (by decide)

/-- C105: the tracer is asked about a call exactly if every pledge permits it, lets it pass or tells the tracer, and at least one tells
the tracer. It gets the number of the newest such pledge. -/
theorem C105_asked (t : Thread) (l : List Past) (hl : HasPledged t l) (hv : ∀ p ∈ l, PayloadFits p.v) (d : SeccompData) (m : BitVec 16) :
    told t d = some m ↔
      ∃ newer p older, l = newer ++ p :: older ∧ Tells p d m ∧ (∀ r ∈ newer, Passes r d) ∧ ∀ r ∈ older, Passes r d ∨ ∃ m', Tells r d m' := by
  have back : ∀ newer p older m, l = newer ++ p :: older → Tells p d m → (∀ r ∈ newer, Passes r d) →
      (∀ r ∈ older, Passes r d ∨ ∃ m', Tells r d m') → told t d = some m := by
    intro newer p older m h1 h2 h3 h4
    have hc := tells_action h2
    have : runFilters t.filters d = verdict p.ids p.ps p.v.toU32 d := by
      rw [runFilters_pledged hl, h1, List.map_append, List.map_cons]
      apply combine_earliest
      · rw [hc.1]; decide
      · intro x hx
        obtain ⟨r, hr, rfl⟩ := List.mem_map.1 hx
        rw [hc.1]
        exact passes_action (h3 r hr)
      · intro x hx
        obtain ⟨r, hr, rfl⟩ := List.mem_map.1 hx
        rw [hc.1]
        rcases h4 r hr with h | ⟨m', h⟩
        · exact Int.le_of_lt (passes_action h)
        · rw [(tells_action h).1]; exact Int.le_refl _
    unfold told
    simp only [this, (wantsTrace_iff _).2 hc.1, if_true, hc.2]
  constructor
  · intro h
    have hw : wantsTrace (runFilters t.filters d) = true := by
      unfold told at h
      simp only at h
      split at h
      · assumption
      · cases h
    have ha := (wantsTrace_iff _).1 hw
    have hge := (stack_ge hl d TR (by decide)).1 (by rw [ha]; exact Int.le_refl _)
    have hall : ∀ r ∈ l, Passes r d ∨ ∃ m, Tells r d m := fun r hr => action_passes (hv r hr) (hge r hr)
    have hex : ∃ p ∈ l, ∃ m, Tells p d m := by
      rw [runFilters_pledged hl] at ha
      rcases combine_mem 0x7fff0000#32 (l.map fun p => verdict p.ids p.ps p.v.toU32 d) with hm | hm
      · rw [hm] at ha; exact absurd ha (by decide)
      · obtain ⟨p, hp, he⟩ := List.mem_map.1 hm
        rw [← he] at ha
        rcases hall p hp with h | h
        · have := passes_action h; omega
        · exact ⟨p, hp, h⟩
    obtain ⟨newer, p, older, h1, ⟨m', h2⟩, h3⟩ := first_split (fun p => ∃ m, Tells p d m) l hex
    have h4 : ∀ r ∈ newer, Passes r d := fun r hr => (hall r (by rw [h1]; simp [hr])).resolve_right (h3 r hr)
    have h5 : ∀ r ∈ older, Passes r d ∨ ∃ m, Tells r d m := fun r hr => hall r (by rw [h1]; simp [hr])
    have := back newer p older m' h1 h2 h4 h5
    rw [h, Option.some.injEq] at this
    subst this
    exact ⟨newer, p, older, h1, h2, h4, h5⟩
  · rintro ⟨newer, p, older, h1, h2, h3, h4⟩
    exact back newer p older m h1 h2 h3 h4

/-- C105: exactly what a tracer can get executed. Either every pledge lets the call pass and the tracer is not asked, or it is asked and
goes on with any call that every pledge lets pass or wants traced. -/
theorem C105_executes (t : Thread) (l : List Past) (hl : HasPledged t l) (hv : ∀ p ∈ l, PayloadFits p.v) (d d' : SeccompData) (o : Order) :
    enterTraced t d o = .executes d' ↔
      (d' = d ∧ ∀ p ∈ l, Passes p d) ∨
      ((∃ m, told t d = some m) ∧ o = .go d' ∧ ∀ p ∈ l, Passes p d' ∨ ∃ m, Tells p d' m) := by
  have hpass : ∀ x, (enter t x).ending x = .executes d' ↔ x = d' ∧ ∀ p ∈ l, Passes p x := by
    intro x
    have h1 : (enter t x).ending x = .executes d' ↔ x = d' ∧ outcome (runFilters t.filters x) = .executed := by
      unfold enter
      cases outcome (runFilters t.filters x) <;> simp [Outcome.ending]
    rw [h1]
    apply and_congr_right
    intro _
    constructor
    · intro ho p hp
      have hact : TR < actionOnly (runFilters t.filters x) := by
        rcases (outcome_executed _).1 ho with h | h <;> rw [h] <;> decide
      have hge := (stack_ge hl x (TR + 1) (by decide)).1 (by omega) p hp
      rcases action_passes (d := x) (hv p hp) (by omega) with h | ⟨m, h⟩
      · exact h
      · have := (tells_action h).1; omega
    · intro hall
      have hgt := (stack_ge hl x (TR + 1) (by decide)).2 fun p hp => by have := passes_action (hall p hp); omega
      rw [outcome_executed]
      rw [runFilters_pledged hl] at hgt ⊢
      rcases combine_mem 0x7fff0000#32 (l.map fun p => verdict p.ids p.ps p.v.toU32 x) with hm | hm
      · rw [hm]; right; decide
      · obtain ⟨p, hp, he⟩ := List.mem_map.1 hm
        rw [← he]
        rcases hall p hp with h | ⟨h, hlo⟩
        · have := h ⟨false⟩ p.v
          rw [filterVerdict_eq, Option.some.injEq] at this
          rw [this]; right; decide
        · have := h ⟨false⟩ p.v
          rw [filterVerdict_eq, Option.some.injEq] at this
          rw [this]
          exact action_loose hlo
  have hasked : (∃ m, told t d = some m) ↔ wantsTrace (runFilters t.filters d) = true := by
    unfold told
    by_cases h : wantsTrace (runFilters t.filters d) = true <;> simp [h]
  have hsoft : ∀ x, (wantsTrace (runFilters t.filters x) = true ∨ ∀ p ∈ l, Passes p x) ↔ ∀ p ∈ l, Passes p x ∨ ∃ m, Tells p x m := by
    intro x
    constructor
    · rintro (h | h) p hp
      · have ha := (wantsTrace_iff _).1 h
        exact action_passes (hv p hp) ((stack_ge hl x TR (by decide)).1 (by rw [ha]; exact Int.le_refl _) p hp)
      · exact .inl (h p hp)
    · intro hall
      by_cases hex : ∃ p ∈ l, ∃ m, Tells p x m
      · left
        obtain ⟨newer, p, older, h1, ⟨m', h2⟩, h3⟩ := first_split (fun p => ∃ m, Tells p x m) l hex
        have := (C105_asked t l hl hv x m').2 ⟨newer, p, older, h1, h2,
          fun r hr => (hall r (by rw [h1]; simp [hr])).resolve_right (h3 r hr), fun r hr => hall r (by rw [h1]; simp [hr])⟩
        unfold told at this
        simp only at this
        split at this
        · assumption
        · cases this
      · exact .inr fun p hp => (hall p hp).resolve_right fun ⟨m, h⟩ => hex ⟨p, hp, m, h⟩
  rw [hasked]
  unfold enterTraced
  by_cases hw : wantsTrace (runFilters t.filters d) = true
  · simp only [hw, if_true, true_and]
    have hno : ¬ ∀ p ∈ l, Passes p d := by
      intro hall
      have := (stack_ge hl d (TR + 1) (by decide)).2 fun p hp => by have := passes_action (hall p hp); omega
      rw [(wantsTrace_iff _).1 hw] at this
      omega
    simp only [hno, and_false, false_or]
    cases o with
    | skip v => simp
    | go x =>
      simp only [Order.go.injEq]
      by_cases hx : wantsTrace (runFilters t.filters x) = true
      · simp only [hx, if_true, Ending.executes.injEq]
        constructor
        · rintro rfl; exact ⟨rfl, (hsoft x).1 (.inl hx)⟩
        · exact fun h => h.1
      · simp only [hx, Bool.false_eq_true, if_false, hpass]
        constructor
        · rintro ⟨rfl, h⟩; exact ⟨rfl, (hsoft x).1 (.inr h)⟩
        · rintro ⟨rfl, h⟩; exact ⟨rfl, ((hsoft x).2 h).resolve_left hx⟩
  · simp only [hw, Bool.false_eq_true, if_false, false_and, or_false, hpass]
    constructor
    · rintro ⟨rfl, h⟩; exact ⟨rfl, h⟩
    · rintro ⟨rfl, h⟩; exact ⟨rfl, h⟩

/-- C105: if the tracer is not asked, it makes no difference. In particular if no pledge of the thread has the violation Trace. -/
theorem C105_unasked (t : Thread) (d : SeccompData) (o : Order) (h : told t d = none) : enterTraced t d o = (enter t d).ending d := by
  unfold told at h
  unfold enterTraced
  simp only at h
  split at h
  · cases h
  · rename_i hw; rw [if_neg hw]

theorem C105_no_trace (t : Thread) (l : List Past) (hl : HasPledged t l) (hv : ∀ p ∈ l, PayloadFits p.v)
    (hn : ∀ p ∈ l, ∀ e, p.v ≠ .Trace e) (d : SeccompData) : told t d = none := by
  cases h : told t d with
  | none => rfl
  | some m =>
    obtain ⟨newer, p, older, rfl, ⟨_, e, he, _⟩, _⟩ := (C105_asked t l hl hv d m).1 h
    exact absurd he (hn p (by simp) e)

/-- Not vacuous: a thread that has pledged with `Trap`. -/
example (o : Order) := C105_unasked _ (mkCall 59 []) o (C105_no_trace ({ thread0 with nnp := true, filters := [progOf ⟨100, 100⟩ [.StdIO] (.Trap : SeccompReturn).toU32] }) [⟨⟨100, 100⟩, [.StdIO], .Trap⟩] ((hasPledged_iff _ _).2 rfl) (by simp [PayloadFits]) (by simp) (mkCall 59 []))

/-- Not vacuous: a thread that has pledged with `Trap`. -/
example := C105_no_trace ({ thread0 with nnp := true, filters := [progOf ⟨100, 100⟩ [.StdIO] (.Trap : SeccompReturn).toU32] }) [⟨⟨100, 100⟩, [.StdIO], .Trap⟩] ((hasPledged_iff _ _).2 rfl) (by simp [PayloadFits]) (by simp) (mkCall 59 [])

/-- Program execution, which the promise RPath does not include. -/
def execveCall : SeccompData := { nr := 59, arch := X86_64, instructionPointer := 0, args := fun _ => 0 }

theorem execve_denied (ids : Ids) : Denies ids [.RPath] execveCall := by
  rw [denies_iff]
  refine ⟨rfl, ?_⟩
  rw [allowed_iff (n := 59) rfl (by decide)]
  have hf : freeOf 59 = [.Exec] := by decide +kernel
  simp [hf, ruleAt]

/-- A thread that pledged RPath with violation Trace(7): its tracer is told 7 about an execve and can let it go on. If the thread pledged
the same with KillProcess as well, the tracer is not asked and the thread dies. -/
example (t : Thread) (hl : HasPledged t [⟨⟨100, 100⟩, [.RPath], .Trace 7⟩]) :
    told t execveCall = some 7#16 ∧ enterTraced t execveCall (.go execveCall) = .executes execveCall := by
  have hv : ∀ p ∈ [(⟨⟨100, 100⟩, [.RPath], .Trace 7⟩ : Past)], PayloadFits p.v := by simp [PayloadFits]
  have ht : Tells ⟨⟨100, 100⟩, [.RPath], .Trace 7⟩ execveCall 7#16 := ⟨execve_denied _, 7#32, rfl, by decide, by decide⟩
  have h7 := (C105_asked t _ hl hv execveCall 7#16).2 ⟨[], _, [], rfl, ht, by simp, by simp⟩
  refine ⟨h7, (C105_executes t _ hl hv _ _ _).2 (.inr ⟨⟨_, h7⟩, rfl, ?_⟩)⟩
  intro p hp
  rw [List.mem_singleton] at hp
  subst hp
  exact .inr ⟨_, ht⟩

example (t : Thread) (l : List Past) (hl : HasPledged t l) (hk : ⟨⟨100, 100⟩, [.RPath], .KillProcess⟩ ∈ l) (d : SeccompData) (o : Order) :
    enterTraced t d o ≠ .executes execveCall := fun h =>
  not_both (C105_firm t l hl d _ o h _ hk trivial) (execve_denied _)

end Props
