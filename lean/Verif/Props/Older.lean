import Verif.Env.Older
import Verif.Props.Traced

/-!
# C116: pledges on kernels before 4.14
-/
set_option autoImplicit false

namespace Props
open Spec Pledge Bpfvm Kernel

/-- The actions of filters that this library makes, if payloads fit. -/
def usual : List (BitVec 32) := [0x80000000#32, 0#32, 0x30000#32, 0x50000#32, 0x7ff00000#32, 0x7ffc0000#32, 0x7fff0000#32]

theorem mask_mask (w : BitVec 32) : w &&& 0x7fff0000#32 = (w &&& 0xffff0000#32) &&& 0x7fff0000#32 := by
  rw [BitVec.and_assoc]; rfl

/-- What the two accumulated values have to do with each other. -/
def Alike (o n : BitVec 32) : Prop := o = n ∨ n &&& 0xffff0000#32 = 0x80000000#32 ∧ o &&& 0x7fff0000#32 = 0#32

theorem usual_table : (usual.all fun c => usual.all fun n =>
    (decide (c &&& 0x7fff0000#32 < n &&& 0x7fff0000#32) == decide (c.toInt < n.toInt)) ||
    (decide (c = 0x80000000#32) && decide (n = 0#32)) ) = true := by decide +kernel

theorem alike_step (c o n : BitVec 32) (hc : c &&& 0xffff0000#32 ∈ usual) (hn : n &&& 0xffff0000#32 ∈ usual) (h : Alike o n) :
    Alike (if c &&& 0x7fff0000#32 < o &&& 0x7fff0000#32 then c else o) (if actionOnly c < actionOnly n then c else n) := by
  rcases h with rfl | ⟨h1, h2⟩
  · have ht := usual_table
    simp only [List.all_eq_true, Bool.or_eq_true, beq_iff_eq, Bool.and_eq_true, decide_eq_true_eq] at ht
    have ht := ht _ hc _ hn
    rw [← mask_mask, ← mask_mask] at ht
    rcases ht with ht | ⟨hk, h0⟩
    · have : (c &&& 0x7fff0000#32 < o &&& 0x7fff0000#32) ↔ actionOnly c < actionOnly o := by
        unfold actionOnly
        exact decide_eq_decide.1 ht
      by_cases hlt : actionOnly c < actionOnly o
      · rw [if_pos hlt, if_pos (this.2 hlt)]; exact .inl rfl
      · rw [if_neg hlt, if_neg (fun h => hlt (this.1 h))]; exact .inl rfl
    · have e1 : actionOnly c < actionOnly o := by unfold actionOnly; rw [hk, h0]; decide
      have e2 : o &&& 0x7fff0000#32 = 0#32 := by rw [mask_mask, h0]; rfl
      rw [if_pos e1, e2, if_neg (by simp)]
      exact .inr ⟨hk, e2⟩
  · have e1 : ¬ actionOnly c < actionOnly n := by
      have : actionOnly n = -2147483648 := by unfold actionOnly; rw [h1]; rfl
      rw [this]
      unfold actionOnly
      have : -2147483648 ≤ (c &&& 0xffff0000#32).toInt := BitVec.le_toInt _
      omega
    rw [if_neg e1, h2, if_neg (by simp)]
    exact .inr ⟨h1, h2⟩

theorem alike_all (vals : List (BitVec 32)) (h : ∀ c ∈ vals, c &&& 0xffff0000#32 ∈ usual) (o n : BitVec 32)
    (hn : n &&& 0xffff0000#32 ∈ usual) (ha : Alike o n) :
    Alike (vals.foldl (fun ret c => if c &&& 0x7fff0000#32 < ret &&& 0x7fff0000#32 then c else ret) o) (combine n vals) ∧
    combine n vals &&& 0xffff0000#32 ∈ usual := by
  induction vals generalizing o n with
  | nil => exact ⟨ha, hn⟩
  | cons c vals ih =>
    have hc := h c (List.mem_cons_self ..)
    refine ih (fun x hx => h x (List.mem_cons_of_mem _ hx)) _ _ ?_ (alike_step c o n hc hn ha)
    show (if actionOnly c < actionOnly n then c else n) &&& _ ∈ _
    split
    · exact hc
    · exact hn

theorem usual_violation {v : SeccompReturn} (h : PayloadFits v) : v.toU32 &&& 0xffff0000#32 ∈ usual := by
  cases v with
  | Errno e => rw [show (SeccompReturn.Errno e).toU32 = 0x00050000#32 ||| e from rfl, or_hi _ e h]; decide
  | Trace e => rw [show (SeccompReturn.Trace e).toU32 = 0x7ff00000#32 ||| e from rfl, or_hi _ e h]; decide
  | _ => decide

theorem usual_verdict (p : Past) (h : PayloadFits p.v) (d : SeccompData) : verdict p.ids p.ps p.v.toU32 d &&& 0xffff0000#32 ∈ usual := by
  rcases verdict_three p.ids p.ps p.v.toU32 d with ⟨_, e⟩ | ⟨_, e⟩ | ⟨_, e⟩ <;> rw [e]
  · decide
  · exact usual_violation h
  · decide

/-- The fate of a call on an older kernel, by the value that a newer one computes. -/
theorem outcome_older (o n : BitVec 32) (hn : n &&& 0xffff0000#32 ∈ usual) (h : Alike o n) :
    outcomeOlder o = if outcome n = .killProcess ∨ n &&& 0xffff0000#32 = 0x7ffc0000#32 then .killThread else outcome n := by
  rcases h with rfl | ⟨h1, h2⟩
  · unfold outcomeOlder outcome
    rw [mask_mask]
    simp only
    generalize o &&& 0xffff0000#32 = x at *
    simp only [usual, List.mem_cons, List.not_mem_nil, or_false] at hn
    rcases hn with rfl | rfl | rfl | rfl | rfl | rfl | rfl <;> simp
  · have : outcome n = .killProcess := by unfold outcome; rw [h1]; rfl
    rw [if_pos (.inl this)]
    unfold outcomeOlder
    rw [h2]; rfl

theorem log_only {v : SeccompReturn} (h : PayloadFits v) (hl : v.toU32 &&& 0xffff0000#32 = 0x7ffc0000#32) : v = .Log := by
  cases v with
  | Errno e =>
    rw [show (SeccompReturn.Errno e).toU32 = 0x00050000#32 ||| e from rfl, or_hi _ e h] at hl
    exact absurd hl (by decide)
  | Trace e =>
    rw [show (SeccompReturn.Trace e).toU32 = 0x7ff00000#32 ||| e from rfl, or_hi _ e h] at hl
    exact absurd hl (by decide)
  | Log => rfl
  | _ => exact absurd hl (by decide)

section
variable (t : Thread) (l : List Past) (hl : HasPledged t l) (hv : ∀ p ∈ l, PayloadFits p.v) (d : SeccompData)
include hl hv

/-- C116, exactly: on a kernel before 4.14 a call of a pledged thread has the fate it has on a later one, with two exceptions. What would
kill the process kills the thread only. A forbidden call that would be logged and executed kills the thread. -/
theorem C116_exact :
    (enter t d = .killProcess → enterOlder t d = .killThread) ∧
    (enter t d = .executed → (∃ p ∈ l, p.v = .Log ∧ Denies p.ids p.ps d) → enterOlder t d = .killThread) ∧
    (enter t d ≠ .killProcess → ¬ (enter t d = .executed ∧ ∃ p ∈ l, p.v = .Log ∧ Denies p.ids p.ps d) → enterOlder t d = enter t d) := by
  have hall := alike_all (l.map fun p => verdict p.ids p.ps p.v.toU32 d)
    (by intro c hc; obtain ⟨p, hp, rfl⟩ := List.mem_map.1 hc; exact usual_verdict p (hv p hp) d) 0x7fff0000#32 0x7fff0000#32 (by decide) (.inl rfl)
  have ho : enterOlder t d = outcomeOlder ((l.map fun p => verdict p.ids p.ps p.v.toU32 d).foldl
      (fun ret c => if c &&& 0x7fff0000#32 < ret &&& 0x7fff0000#32 then c else ret) 0x7fff0000#32) := by
    unfold enterOlder runFiltersOlder
    rw [(hasPledged_iff t l).1 hl, List.foldl_map, List.foldl_map]
    have : ∀ p : Past, (run (fun _ => 0) (progOf p.ids p.ps p.v.toU32) d.words).getD 0 = verdict p.ids p.ps p.v.toU32 d :=
      fun p => cur_progOf _ _ _ _
    simp only [this]
  have hn : enter t d = outcome (combine 0x7fff0000#32 (l.map fun p => verdict p.ids p.ps p.v.toU32 d)) := by
    unfold enter; rw [runFilters_pledged hl]
  have hlog : (enter t d = .executed ∧ ∃ p ∈ l, p.v = .Log ∧ Denies p.ids p.ps d) ↔
      combine 0x7fff0000#32 (l.map fun p => verdict p.ids p.ps p.v.toU32 d) &&& 0xffff0000#32 = 0x7ffc0000#32 := by
    constructor
    · rintro ⟨he, p, hp, hpl, hd⟩
      rw [hn, outcome_executed] at he
      rcases he with he | he
      · exact (action_eq_iff _ _).1 he
      · exfalso
        have := (combine_le 0x7fff0000#32 (l.map fun p => verdict p.ids p.ps p.v.toU32 d)).2 _ (List.mem_map.2 ⟨p, hp, rfl⟩)
        rw [he] at this
        rcases verdict_three p.ids p.ps p.v.toU32 d with ⟨h, _⟩ | ⟨_, h⟩ | ⟨_, h⟩
        · exact not_both h hd
        · rw [h, hpl] at this; revert this; decide
        · rw [h] at this; revert this; decide
    · intro h
      refine ⟨by rw [hn, outcome_executed]; exact .inl ((action_eq_iff _ _).2 h), ?_⟩
      rcases combine_mem 0x7fff0000#32 (l.map fun p => verdict p.ids p.ps p.v.toU32 d) with hm | hm
      · rw [hm] at h; exact absurd h (by decide)
      · obtain ⟨p, hp, he⟩ := List.mem_map.1 hm
        rw [← he] at h
        rcases verdict_three p.ids p.ps p.v.toU32 d with ⟨_, e⟩ | ⟨hd, e⟩ | ⟨_, e⟩
        · rw [e] at h; exact absurd h (by decide)
        · rw [e] at h; exact ⟨p, hp, log_only (hv p hp) h, hd⟩
        · rw [e] at h; exact absurd h (by decide)
  have key := outcome_older _ _ hall.2 hall.1
  rw [← ho, ← hn] at key
  refine ⟨fun h => ?_, fun h hp => ?_, fun h hp => ?_⟩
  · rw [key, if_pos (.inl h)]
  · rw [key, if_pos (.inr (hlog.1 ⟨h, hp⟩))]
  · rw [key, if_neg]
    rintro (h' | h')
    · exact h h'
    · exact hp (hlog.2 h')

/-- C116: an older kernel executes no call of a pledged thread that a later one would not execute. -/
theorem C116_no_more (h : enterOlder t d = .executed) : enter t d = .executed := by
  obtain ⟨h1, _, h3⟩ := C116_exact t l hl hv d
  by_cases hk : enter t d = .killProcess
  · rw [h1 hk] at h; cases h
  · by_cases he : enter t d = .executed
    · exact he
    · rw [← h3 hk fun hc => he hc.1]; exact h

/-- C116: and it executes every call that all pledges permit. -/
theorem C116_permitted (h : ∀ p ∈ l, Allows p.ids p.ps d) : enterOlder t d = .executed := by
  obtain ⟨_, _, h3⟩ := C116_exact t l hl hv d
  have he : enter t d = .executed := by
    unfold enter
    rw [runFilters_pledged hl, outcome_executed]
    right
    rcases combine_mem 0x7fff0000#32 (l.map fun p => verdict p.ids p.ps p.v.toU32 d) with hm | hm
    · rw [hm]; rfl
    · obtain ⟨p, hp, he⟩ := List.mem_map.1 hm
      rw [← he]
      rcases verdict_three p.ids p.ps p.v.toU32 d with ⟨_, e⟩ | ⟨hd, e⟩ | ⟨ha, e⟩
      · rw [e]; rfl
      · exact (not_both (h p hp) hd).elim
      · exact absurd ((allows_iff _ _ _).1 (h p hp)).1 ha
  rw [h3 (by rw [he]; simp) ?_, he]
  rintro ⟨_, p, hp, _, hd⟩
  exact not_both (h p hp) hd

end

/-- C116: the payloads have to fit in 16 bits. With `Errno(0xfffa0000)` a later kernel kills the process for a forbidden call, and an older
one executes it. -/
theorem C116_wide_payload (ids : Ids) (ps : List Promise) (t : Thread) (ht : HasPledged t [⟨ids, ps, .Errno 0xfffa0000⟩])
    (d : SeccompData) (hd : Denies ids ps d) : enter t d = .killProcess ∧ enterOlder t d = .executed := by
  have hf := (hasPledged_iff _ _).1 ht
  have hv : ∀ v, verdict ids ps v d = v := by
    intro v
    rcases verdict_three ids ps v d with ⟨h, _⟩ | ⟨_, h⟩ | ⟨h, _⟩
    · exact (not_both h hd).elim
    · exact h
    · exact absurd ((denies_iff _ _ _).1 hd).1 h
  constructor
  · unfold enter
    rw [runFilters_pledged ht]
    simp only [List.map_cons, List.map_nil, hv]
    decide
  · unfold enterOlder runFiltersOlder
    have : (run (fun _ => 0) (progOf ids ps (SeccompReturn.Errno 0xfffa0000).toU32) d.words).getD 0 = 0xffff0000#32 := by
      show cur _ _ = _
      rw [cur_progOf, hv]; rfl
    rw [hf]
    simp only [List.map_cons, List.map_nil, List.foldl_cons, List.foldl_nil, this]
    decide

/-- Not vacuous: RPath with violation Log; execve is logged and executed by a later kernel, and kills the thread on an older one. -/
example :
    let t : Thread := { thread0 with filters := [progOf ⟨100, 100⟩ [.RPath] 0x7ffc0000] }
    HasPledged t [⟨⟨100, 100⟩, [.RPath], .Log⟩] ∧ enter t execveCall = .executed ∧ enterOlder t execveCall = .killThread := by
  intro t
  have hl : HasPledged t [⟨⟨100, 100⟩, [.RPath], .Log⟩] := (hasPledged_iff _ _).2 rfl
  have he : enter t execveCall = .executed := by
    unfold enter
    rw [runFilters_pledged hl]
    simp only [List.map_cons, List.map_nil]
    rcases verdict_three ⟨100, 100⟩ [.RPath] (SeccompReturn.Log).toU32 execveCall with ⟨h, _⟩ | ⟨_, h⟩ | ⟨h, _⟩
    · exact (not_both h (execve_denied _)).elim
    · rw [h]; decide
    · exact absurd rfl h
  refine ⟨hl, he, (C116_exact t _ hl ?_ execveCall).2.1 he ⟨_, List.mem_singleton.2 rfl, rfl, execve_denied _⟩⟩
  intro p hp; cases List.mem_singleton.1 hp; trivial

end Props
