import Verif.Props.Exact

/-!
# C80: exactly when privileges can grow back, and when pledges intersect

C50 and C51 are false for some violations with payloads of more than sixteen bits. Here is for which.
-/
set_option autoImplicit false

namespace Props
open Pledge Bpfvm Spec Kernel

/-- The payload turns the action into one of the two undefined numbers between LOG and ALLOW. -/
def Between (v : SeccompReturn) : Prop :=
  (∃ e, v = .Errno e ∧ e &&& 0xfffa0000 = 0x7ff80000) ∨
  (∃ t, v = .Trace t ∧ (t &&& 0x800f0000 = 0x000d0000 ∨ t &&& 0x800f0000 = 0x000e0000))

/-- The violation is Log, or the payload turns the action into LOG. -/
def LogLike (v : SeccompReturn) : Prop := v = .Log ∨ ∃ t, v = .Trace t ∧ t &&& 0x800f0000 = 0x000c0000

theorem between_iff (v : SeccompReturn) :
    Between v ↔ v.toU32 &&& 0xffff0000#32 = 0x7ffd0000#32 ∨ v.toU32 &&& 0xffff0000#32 = 0x7ffe0000#32 := by
  unfold Between
  cases v with
  | Errno e =>
    have h1 : (SeccompReturn.Errno e).toU32 &&& 0xffff0000#32 = 0x7ffd0000#32 ↔ e &&& 0xfffa0000#32 = 0x7ff80000#32 :=
      or_mask _ _ _ _ _ (by decide +kernel) e
    have h2 : (SeccompReturn.Errno e).toU32 &&& 0xffff0000#32 ≠ 0x7ffe0000#32 := or_mask_ne _ _ _ 16 (by decide) e
    simp [h1, h2]
  | Trace t =>
    have h1 : (SeccompReturn.Trace t).toU32 &&& 0xffff0000#32 = 0x7ffd0000#32 ↔ t &&& 0x800f0000#32 = 0x000d0000#32 :=
      or_mask _ _ _ _ _ (by decide +kernel) t
    have h2 : (SeccompReturn.Trace t).toU32 &&& 0xffff0000#32 = 0x7ffe0000#32 ↔ t &&& 0x800f0000#32 = 0x000e0000#32 :=
      or_mask _ _ _ _ _ (by decide +kernel) t
    simp [h1, h2]
  | _ => simp; decide

theorem logLike_iff (v : SeccompReturn) : LogLike v ↔ v.toU32 &&& 0xffff0000#32 = 0x7ffc0000#32 := by
  unfold LogLike
  cases v with
  | Errno e =>
    have h2 : (SeccompReturn.Errno e).toU32 &&& 0xffff0000#32 ≠ 0x7ffc0000#32 := or_mask_ne _ _ _ 16 (by decide) e
    simp [h2]
  | Trace t =>
    have h1 : (SeccompReturn.Trace t).toU32 &&& 0xffff0000#32 = 0x7ffc0000#32 ↔ t &&& 0x800f0000#32 = 0x000c0000#32 :=
      or_mask _ _ _ _ _ (by decide +kernel) t
    simp [h1]
  | _ => simp; decide

/-- The lowest action is between LOG and ALLOW only by a violation of that kind; it is LOG only by one of that kind. -/
theorem stack_action {t : Thread} {l : List Past} (hl : HasPledged t l) (d : SeccompData) :
    (actionOnly (runFilters t.filters d) = (0x7ffd0000#32).toInt ∨ actionOnly (runFilters t.filters d) = (0x7ffe0000#32).toInt →
      ∃ p ∈ l, Between p.v) ∧
    (actionOnly (runFilters t.filters d) = (0x7ffc0000#32).toInt → ∃ p ∈ l, LogLike p.v) := by
  rw [runFilters_pledged hl]
  simp only [action_eq_iff, between_iff, logLike_iff]
  rcases combine_mem 0x7fff0000#32 (l.map fun p => verdict p.ids p.ps p.v.toU32 d) with hm | hm
  · rw [hm]
    exact ⟨fun h => absurd h (by decide), fun h => absurd h (by decide)⟩
  · obtain ⟨p, hp, he⟩ := List.mem_map.1 hm
    rw [← he]
    rcases verdict_cases p.ids p.ps p.v.toU32 d with h1 | h1 | h1 <;> rw [h1]
    · exact ⟨fun h => absurd h (by decide), fun h => absurd h (by decide)⟩
    · exact ⟨fun h => absurd h (by decide), fun h => absurd h (by decide)⟩
    · exact ⟨fun h => ⟨p, hp, h⟩, fun h => ⟨p, hp, h⟩⟩

/-- An action that is lowered from "not executed" to "executed" goes from between LOG and ALLOW to LOG. -/
theorem grows_back (a c : Int) (hd : (65536 : Int) ∣ a) (hle : a ≤ (0x7fff0000#32).toInt) (hca : c ≤ a)
    (ha : ¬ (a = (0x7ffc0000#32).toInt ∨ a = (0x7fff0000#32).toInt)) (hc : c = (0x7ffc0000#32).toInt ∨ c = (0x7fff0000#32).toInt) :
    (a = (0x7ffd0000#32).toInt ∨ a = (0x7ffe0000#32).toInt) ∧ c = (0x7ffc0000#32).toInt := by
  have e1 : (0x7ffc0000#32).toInt = 2147221504 := by decide
  have e2 : (0x7ffd0000#32).toInt = 2147287040 := by decide
  have e3 : (0x7ffe0000#32).toInt = 2147352576 := by decide
  have e4 : (0x7fff0000#32).toInt = 2147418112 := by decide
  rw [e1, e4] at ha hc
  rw [e4] at hle
  rw [e1, e2, e3]
  omega

/-- After a first pledge of StdIO with violation `v` by the only thread, a second one with violation `w`. -/
theorem run_second (v w : SeccompReturn) :
    System.run [{ thread0 with nnp := true, filters := [progOf ⟨100, 100⟩ [.StdIO] v.toU32] }] [.pledge 0 ⟨true⟩ calm [.StdIO] w] =
      [{ thread0 with nnp := true, filters := [progOf ⟨100, 100⟩ [.StdIO] w.toU32, progOf ⟨100, 100⟩ [.StdIO] v.toU32] }] := by
  generalize ht : ({ thread0 with nnp := true, filters := [progOf ⟨100, 100⟩ [.StdIO] v.toU32] } : Thread) = t
  have hl : HasPledged t [⟨⟨100, 100⟩, [.StdIO], v⟩] := (hasPledged_iff _ _).2 (by rw [← ht]; rfl)
  have hx : enter t (recNnp calm) = .executed := by
    unfold enter
    rw [runFilters_pledged hl]
    simp only [List.map_cons, List.map_nil]
    rw [verdict_own _ _ _ calm _ (.inr (.inr (.inl rfl))), if_pos (by decide)]
    decide
  have hlen := length_of_nodup ⟨100, 100⟩ [.StdIO] w.toU32 (by decide)
  have hp : t.pid = 100 ∧ t.tid = 100 ∧ t.alive = true := by subst ht; exact ⟨rfl, rfl, rfl⟩
  have h2 := pledge_executed ⟨true⟩ calm t [.StdIO] w _ hl hx
  rw [hp.1, hp.2.1] at h2
  have h2 := h2.trans (if_pos (Nat.le_trans hlen (by decide)))
  simp only [System.run, List.foldl_cons, List.foldl_nil, System.step, System.on, List.getElem?_cons_zero, hp.2.2, if_true, h2,
    PledgeRes.death, List.set_cons_zero]
  subst ht
  rfl

/-- The two filters of `run_second` on a forbidden execve. -/
theorem second_executes (v w : SeccompReturn) (hv : Between v) (hw : LogLike w) (t u : Thread)
    (ht : t = { thread0 with nnp := true, filters := [progOf ⟨100, 100⟩ [.StdIO] v.toU32] })
    (hu : u = { thread0 with nnp := true, filters := [progOf ⟨100, 100⟩ [.StdIO] w.toU32, progOf ⟨100, 100⟩ [.StdIO] v.toU32] }) :
    enter t (mkCall 59 []) ≠ .executed ∧ enter u (mkCall 59 []) = .executed := by
  have hl : HasPledged t [⟨⟨100, 100⟩, [.StdIO], v⟩] := (hasPledged_iff _ _).2 (by rw [ht]; rfl)
  have hl2 : HasPledged u [⟨⟨100, 100⟩, [.StdIO], w⟩, ⟨⟨100, 100⟩, [.StdIO], v⟩] := (hasPledged_iff _ _).2 (by rw [hu]; rfl)
  have hden : ∀ v : SeccompReturn, verdict ⟨100, 100⟩ [.StdIO] v.toU32 (mkCall 59 []) = v.toU32 := fun v =>
    verdict_denied rfl ((denies_iff _ _ _).1 (denies_execve _)).2
  rw [between_iff, ← action_eq_iff, ← action_eq_iff] at hv
  rw [logLike_iff, ← action_eq_iff] at hw
  have e1 : (0x7ffc0000#32).toInt = 2147221504 := by decide
  have e2 : (0x7ffd0000#32).toInt = 2147287040 := by decide
  have e3 : (0x7ffe0000#32).toInt = 2147352576 := by decide
  have e4 : (0x7fff0000#32).toInt = 2147418112 := by decide
  have e5 : actionOnly 0x7fff0000#32 = 2147418112 := by decide
  unfold enter
  rw [runFilters_pledged hl, runFilters_pledged hl2, Ne, outcome_executed, outcome_executed]
  simp only [List.map_cons, List.map_nil, hden]
  generalize v.toU32 = a at *
  generalize w.toU32 = c at *
  simp only [combine, List.foldl_cons, List.foldl_nil]
  rw [e1] at hw
  rw [e2, e3] at hv
  rw [if_pos (show actionOnly a < actionOnly 0x7fff0000#32 by omega), if_pos (show actionOnly c < actionOnly 0x7fff0000#32 by omega),
    if_neg (show ¬ actionOnly a < actionOnly c by omega), e1, e4]
  omega

/-- C80: a program uses the violations `V`. What is denied to a thread stays denied to it and to the threads it creates, in every history
of such a program, exactly if `V` does not have both a violation of the first and one of the second kind. -/
theorem C80_never_grow_iff (V : SeccompReturn → Prop) :
    (∀ (s : System) (ops1 ops2 : List Op) (i : Nat) (t : Thread) (d : SeccompData), Fresh s → OnlyPledges (ops1 ++ ops2) →
      Violations V (ops1 ++ ops2) → (s.run ops1)[i]? = some t → enter t d ≠ .executed →
      ∀ j ∈ heirs (s.run ops1) ops2 [i], ∀ u, (s.run (ops1 ++ ops2))[j]? = some u → enter u d ≠ .executed) ↔
    ¬ ((∃ v, V v ∧ Between v) ∧ (∃ w, V w ∧ LogLike w)) := by
  constructor
  · rintro h ⟨⟨v, hv, hb⟩, ⟨w, hw, hw'⟩⟩
    have hr1 := run_first v [.StdIO] (by decide)
    have hr2 := run_second v w
    have hs := second_executes v w hb hw' _ _ rfl rfl
    refine h [thread0] [.pledge 0 ⟨true⟩ calm [.StdIO] v] [.pledge 0 ⟨true⟩ calm [.StdIO] w] 0 _ (mkCall 59 [])
      (by simp [Fresh, thread0]) (by simp [OnlyPledges]) ?_ (by rw [hr1]; rfl) hs.1 0 ?_ _ ?_ hs.2
    · intro i b env ps x hx
      simp only [List.cons_append, List.nil_append, List.mem_cons, Op.pledge.injEq, List.not_mem_nil, or_false] at hx
      rcases hx with ⟨-, -, -, -, rfl⟩ | ⟨-, -, -, -, rfl⟩
      · exact hv
      · exact hw
    · simp [heirs]
    · rw [run_append, hr1, hr2]; rfl
  · intro hV s ops1 ops2 i t d hf ho hviol ht hd j hj u hu hx
    have hu' := hu
    rw [run_append] at hu'
    have hg := C50_filters_only_grow (s.run ops1) ops2 i t ht j hj u hu'
    obtain ⟨l, h1, h2⟩ := reachable_pledged V ops1 s (fun j t h => fresh_pledged _ s hf j t h)
      (fun o ho' => ho o (by simp [ho'])) (fun i b env ps v hm => hviol i b env ps v (by simp [hm])) i t ht
    obtain ⟨l', h1', h2'⟩ := reachable_pledged V (ops1 ++ ops2) s (fun j t h => fresh_pledged _ s hf j t h) ho hviol j u hu
    have hle := action_suffix hg.1 d
    unfold enter at hd hx
    rw [Ne, outcome_executed] at hd
    rw [outcome_executed] at hx
    obtain ⟨g1, g2⟩ := grows_back _ _ (action_dvd _) (action_le_max _) hle hd hx
    obtain ⟨p, hp, hpb⟩ := (stack_action h1 d).1 g1
    obtain ⟨p', hp', hpl⟩ := (stack_action h1' d).2 g2
    exact hV ⟨⟨_, h2 p hp, hpb⟩, ⟨_, h2' p' hp', hpl⟩⟩

/-- C80: under the same condition, and only then, the filters of several pledges act as the intersection of what each lets through. -/
theorem C80_intersection_iff (V : SeccompReturn → Prop) :
    (∀ (t : Thread) (l : List Past) (d : SeccompData), HasPledged t l → (∀ p ∈ l, V p.v) →
      (enter t d = .executed ↔ ∀ p ∈ l, ∃ r, p.verdict d = some r ∧ outcome r = .executed)) ↔
    ¬ ((∃ v, V v ∧ Between v) ∧ (∃ w, V w ∧ LogLike w)) := by
  constructor
  · rintro h ⟨⟨v, hv, hb⟩, ⟨w, hw, hw'⟩⟩
    have hs := second_executes v w hb hw' _ _ rfl rfl
    have hl2 : HasPledged { thread0 with nnp := true, filters := [progOf ⟨100, 100⟩ [.StdIO] w.toU32, progOf ⟨100, 100⟩ [.StdIO] v.toU32] }
      [⟨⟨100, 100⟩, [.StdIO], w⟩, ⟨⟨100, 100⟩, [.StdIO], v⟩] := (hasPledged_iff _ _).2 rfl
    have := (h _ _ (mkCall 59 []) hl2 (by simp [hv, hw])).1 hs.2 ⟨⟨100, 100⟩, [.StdIO], v⟩ (by simp)
    obtain ⟨r, h1, h2⟩ := this
    rw [past_verdict] at h1
    injection h1 with h1
    have hden : verdict ⟨100, 100⟩ [.StdIO] v.toU32 (mkCall 59 []) = v.toU32 :=
      verdict_denied rfl ((denies_iff _ _ _).1 (denies_execve _)).2
    simp only [hden] at h1
    rw [← h1, outcome_executed_iff] at h2
    rw [between_iff] at hb
    rcases hb with hb | hb <;> rw [hb] at h2 <;> revert h2 <;> decide
  · intro hV t l d hl hp
    have hx : (∀ p ∈ l, ∃ r, p.verdict d = some r ∧ outcome r = .executed) ↔
        ∀ p ∈ l, outcome (verdict p.ids p.ps p.v.toU32 d) = .executed := by
      simp only [past_verdict]
      exact ⟨fun h p hp => by obtain ⟨r, h1, h2⟩ := h p hp; injection h1 with h1; rw [h1]; exact h2, fun h p hp => ⟨_, rfl, h p hp⟩⟩
    rw [hx]
    constructor
    · intro h p hp'
      refine Classical.byContradiction fun hn => ?_
      have hle : actionOnly (runFilters t.filters d) ≤ actionOnly (verdict p.ids p.ps p.v.toU32 d) := by
        rw [runFilters_pledged hl]
        exact (combine_le _ _).2 _ (List.mem_map.2 ⟨p, hp', rfl⟩)
      unfold enter at h
      rw [outcome_executed] at h hn
      obtain ⟨g1, g2⟩ := grows_back _ _ (action_dvd _) (action_le_max _) hle hn h
      obtain ⟨p', hp'', hpl⟩ := (stack_action hl d).2 g2
      refine hV ⟨⟨p.v, hp p hp', ?_⟩, ⟨_, hp p' hp'', hpl⟩⟩
      rw [between_iff, ← action_eq_iff, ← action_eq_iff]
      rcases verdict_cases p.ids p.ps p.v.toU32 d with h1 | h1 | h1 <;> rw [h1] at g1
      · exact absurd g1 (by decide)
      · exact absurd g1 (by decide)
      · exact g1
    · intro h
      unfold enter
      rw [runFilters_pledged hl]
      rcases combine_mem 0x7fff0000#32 (l.map fun p => verdict p.ids p.ps p.v.toU32 d) with hm | hm
      · rw [hm]; decide
      · obtain ⟨p, hp', he⟩ := List.mem_map.1 hm
        rw [← he]; exact h p hp'

/-! ### Cases -/

/-- Violations of the two kinds; payloads of at most sixteen bits are of neither kind except Log. -/
example : Between (.Errno 0x7ffd0000) ∧ Between (.Trace 0x000e0000) ∧ LogLike .Log ∧ LogLike (.Trace 0x000c0007) ∧
    ¬ Between (.Errno 0xffff) ∧ ¬ LogLike (.Trace 0xffff) ∧ ¬ Between .Log := by
  simp only [between_iff, logLike_iff]
  decide

/-- A program that uses any violation with a payload of at most sixteen bits is fine, and so is one that uses wide payloads but never
Log; one that uses `Errno(0x7ffd0000)` and `Log` is not. -/
example : ¬ ((∃ v, PayloadFits v ∧ Between v) ∧ (∃ w, PayloadFits w ∧ LogLike w)) ∧
    ¬ ((∃ v, v = .Errno 0x7ffd0000 ∧ Between v) ∧ (∃ w, w = .Errno 0x7ffd0000 ∧ LogLike w)) ∧
    ((∃ v, (v = .Errno 0x7ffd0000 ∨ v = .Log) ∧ Between v) ∧ (∃ w, (w = .Errno 0x7ffd0000 ∨ w = .Log) ∧ LogLike w)) := by
  refine ⟨?_, ?_, ⟨_, .inl rfl, ?_⟩, ⟨_, .inr rfl, .inl rfl⟩⟩
  · rintro ⟨⟨v, h1, h2⟩, -⟩
    rw [between_iff] at h2
    have := fits_action v h1
    rcases h2 with h2 | h2 <;> rw [h2] at this <;> revert this <;> decide
  · rintro ⟨-, ⟨w, rfl, h2⟩⟩
    rw [logLike_iff] at h2
    revert h2; decide
  · rw [between_iff]; decide

end Props
