import Verif.Spec.Limit
import Verif.Props.Result

/-!
# C95: how often a thread can pledge
-/
set_option autoImplicit false

namespace Props
open Pledge Bpfvm Spec Kernel

/-- C95: a thread whose library calls are executed, in a kernel that fails only for its limit: the pledge returns Ok and adds the filter
if it fits, and otherwise returns ENOMEM and adds nothing. -/
theorem C95_fits (W : Prog → Nat) (b : Build) (env : Env) (t : Thread) (l : List Past) (hl : HasPledged t l)
    (he : enter t (recNnp env) = .executed) (ps : List Promise) (v : SeccompReturn) (hs : filterSize ps ≤ 4096) (f : Prog)
    (hf : promisesToProg b ⟨t.pid, t.tid⟩ ps v = .ok f) :
    (Fits W f t.filters →
      pledgeOverride b (limited W f t env) t ps v = ({ t with nnp := true, filters := f :: t.filters }, .ok)) ∧
    (¬ Fits W f t.filters →
      pledgeOverride b (limited W f t env) t ps v = ({ t with nnp := true }, .err (.SysErr 12))) := by
  rw [promisesToProg_eq] at hf
  cases hf
  rw [pledge_executed b (limited W _ t env) t ps v l hl he, size_progOf, if_pos hs]
  refine ⟨fun h => ?_, fun h => ?_⟩
  · simp only [limited, if_pos h]
  · simp only [limited, if_neg h]

theorem load_cons (W : Prog → Nat) (f : Prog) (fs : List Prog) : load W (f :: fs) = W f + 4 + load W fs := by simp [load]

/-- C95: in every history that keeps the rule, with sizes not below the number of instructions, no thread ever has more than 2979 filters
from the library, however its ancestors have pledged. -/
theorem C95_finite (W : Prog → Nat) (hW : ∀ f, f.length ≤ W f) (s : System) (hs : Fresh s) (ops : List Op) (ho : OnlyPledges ops)
    (hk : RuleKept W s ops) (j : Nat) (t : Thread) (ht : (s.run ops)[j]? = some t) : t.filters.length ≤ 2979 := by
  have inv : ∀ (ops : List Op) (s : System), (∀ (k : Nat) (t : Thread), s[k]? = some t → load W t.filters ≤ 32772) → RuleKept W s ops →
      ∀ (k : Nat) (t : Thread), (s.run ops)[k]? = some t → load W t.filters ≤ 32772 := by
    intro ops
    induction ops with
    | nil => intro s h _; exact h
    | cons op ops ih =>
      intro s h hk
      refine ih (s.step op) (fun k t' ht' => ?_) hk.2
      have old : ∀ t : Thread, s[k]? = some t → load W t'.filters ≤ 32772 := by
        intro t h1
        by_cases he : t'.filters = t.filters
        · rw [he]
          exact h k t h1
        · cases hf : t'.filters with
          | nil => simp [load]
          | cons f fs =>
            have := hk.1 k t t' f fs h1 ht' he hf
            unfold Fits at this
            rw [load_cons]
            omega
      rcases step_cases s op with ⟨_, hc⟩ | ⟨i, d, h', pid, tid, t, rfl, hi, _, _, hc⟩
      · obtain ⟨t, h1, _⟩ := hc k t' ht'
        exact old t h1
      · rw [hc, List.getElem?_append] at ht'
        split at ht'
        · exact old t' ht'
        · rw [List.getElem?_singleton] at ht'
          split at ht'
          · cases ht'
            exact h i t hi
          · cases ht'
  have hload := inv ops s (fun k t hk => by rw [hs t (List.mem_of_getElem? hk)]; simp [load]) hk j t ht
  obtain ⟨l, hl, _⟩ := reachable_pledged (fun _ => True) ops s (fresh_pledged (fun _ => True) s hs) ho (fun _ _ _ _ _ _ => trivial) j t ht
  have key : ∀ l : List Past, 11 * l.length ≤ load W (l.map fun p => progOf p.ids p.ps p.v.toU32) := by
    intro l
    induction l with
    | nil => simp [load]
    | cons p l ih =>
      have := hW (progOf p.ids p.ps p.v.toU32)
      rw [size_progOf] at this
      unfold filterSize at this
      rw [List.map_cons, load_cons, List.length_cons]
      omega
  have := key l
  rw [← (hasPledged_iff t l).1 hl] at this
  rw [(hasPledged_iff t l).1 hl, List.length_map]
  omega

/-- C95: the same pledge, with StdIO, again and again: it returns Ok exactly as often as the limit has room for it, and ENOMEM ever after,
with no further effect. -/
theorem C95_repeat (W : Prog → Nat) (b : Build) (env : Env) (t : Thread) (ht : t.filters = []) (ps : List Promise) (v : SeccompReturn)
    (hstd : .StdIO ∈ ps) (hs : filterSize ps ≤ 4096) (f : Prog) (hf : promisesToProg b ⟨t.pid, t.tid⟩ ps v = .ok f) (n : Nat) :
    (repeated W f b env ps v t n).filters = List.replicate (min n (32772 / (W f + 4))) f ∧
    (pledgeOverride b (limited W f (repeated W f b env ps v t n) env) (repeated W f b env ps v t n) ps v).2 =
      if (n + 1) * (W f + 4) ≤ 32772 then .ok else .err (.SysErr 12) := by
  have hpos : 0 < W f + 4 := by omega
  have hfp : f = progOf ⟨t.pid, t.tid⟩ ps v.toU32 := by
    rw [promisesToProg_eq] at hf
    cases hf
    rfl
  -- one more call, after `m` effective ones
  have one : ∀ (u : Thread) (m : Nat), u.pid = t.pid → u.tid = t.tid → u.filters = List.replicate m f →
      (Fits W f u.filters ↔ (m + 1) * (W f + 4) ≤ 32772) ∧
      (Fits W f u.filters →
        pledgeOverride b (limited W f u env) u ps v = ({ u with nnp := true, filters := f :: u.filters }, .ok)) ∧
      (¬ Fits W f u.filters → pledgeOverride b (limited W f u env) u ps v = ({ u with nnp := true }, .err (.SysErr 12))) := by
    intro u m h1 h2 h3
    have hl : HasPledged u (List.replicate m ⟨⟨t.pid, t.tid⟩, ps, v⟩) := by
      rw [hasPledged_iff, h3, List.map_replicate, hfp]
    have he : enter u (recNnp env) = .executed := by
      rcases own_outcome env u _ hl with he | ⟨p, hp, hn, _⟩
      · exact he
      · rw [(List.mem_replicate.1 hp).2] at hn
        exact absurd hstd hn
    refine ⟨?_, C95_fits W b env u _ hl he ps v hs f (by rw [h1, h2]; exact hf)⟩
    have : load W (List.replicate m f) = m * (W f + 4) := by
      simp [load]
    unfold Fits
    rw [h3, this, Nat.succ_mul]
    omega
  have main : ∀ n, (repeated W f b env ps v t n).pid = t.pid ∧ (repeated W f b env ps v t n).tid = t.tid ∧
      (repeated W f b env ps v t n).filters = List.replicate (min n (32772 / (W f + 4))) f := by
    intro n
    induction n with
    | zero => exact ⟨rfl, rfl, by simp [repeated, ht]⟩
    | succ n ih =>
      obtain ⟨i1, i2, i3⟩ := ih
      obtain ⟨o1, o2, o3⟩ := one _ _ i1 i2 i3
      simp only [repeated]
      by_cases hfit : Fits W f (repeated W f b env ps v t n).filters
      · rw [o2 hfit]
        refine ⟨i1, i2, ?_⟩
        have := o1.1 hfit
        simp only
        rw [i3, ← List.replicate_succ]
        congr 1
        have := (Nat.le_div_iff_mul_le hpos).2 this
        omega
      · rw [o3 hfit]
        refine ⟨i1, i2, ?_⟩
        simp only
        rw [i3]
        congr 1
        have : ¬ min n (32772 / (W f + 4)) + 1 ≤ 32772 / (W f + 4) := fun h => hfit (o1.2 ((Nat.le_div_iff_mul_le hpos).1 h))
        omega
  obtain ⟨i1, i2, i3⟩ := main n
  refine ⟨i3, ?_⟩
  obtain ⟨o1, o2, o3⟩ := one _ _ i1 i2 i3
  have hiff : (min n (32772 / (W f + 4)) + 1) * (W f + 4) ≤ 32772 ↔ (n + 1) * (W f + 4) ≤ 32772 := by
    rw [← Nat.le_div_iff_mul_le hpos, ← Nat.le_div_iff_mul_le hpos]
    omega
  by_cases hfit : Fits W f (repeated W f b env ps v t n).filters
  · rw [o2 hfit, if_pos (hiff.1 (o1.1 hfit))]
  · rw [o3 hfit, if_neg (fun h => hfit (o1.2 (hiff.2 h)))]

/-- With the number of instructions as size, StdIO can be pledged 108 times; the next pledge fails. -/
example (b : Build) (env : Env) (v : SeccompReturn) (n : Nat) :
    ∃ f, promisesToProg b ⟨thread0.pid, thread0.tid⟩ [.StdIO] v = .ok f ∧
    (pledgeOverride b (limited List.length f (repeated List.length f b env [.StdIO] v thread0 n) env)
      (repeated List.length f b env [.StdIO] v thread0 n) [.StdIO] v).2 = if n < 108 then .ok else .err (.SysErr 12) := by
  refine ⟨_, promisesToProg_eq _ _ _ _, ?_⟩
  rw [(C95_repeat List.length b env thread0 rfl [.StdIO] v (by simp) (by decide +kernel) _ (promisesToProg_eq _ _ _ _) n).2, size_progOf]
  have : filterSize [.StdIO] = 297 := by decide +kernel
  rw [this]
  congr 1
  exact propext ⟨fun h => by omega, fun h => by omega⟩

/-- A history that keeps the rule. -/
example : RuleKept List.length [thread0] [.pledge 0 ⟨true⟩ calm [.StdIO] .KillProcess] := by
  refine ⟨?_, trivial⟩
  intro k t t' f old h1 h2 h3 h4
  have hk : k = 0 := by
    cases k with
    | zero => rfl
    | succ k => simp at h1
  subst hk
  simp only [List.getElem?_cons_zero, Option.some.injEq] at h1
  subst h1
  have hlen : f.length ≤ 4096 ∧ old = [] := by
    have he : enter thread0 (recNnp calm) = .executed := by simp only [enter, runFilters, thread0, List.foldl_nil]; decide
    simp only [System.step, System.on, List.getElem?_cons_zero] at h2
    rw [pledge_executed ⟨true⟩ calm thread0 [.StdIO] .KillProcess [] rfl he] at h2
    simp only [calm, size_progOf, if_pos (show filterSize [.StdIO] ≤ 4096 by decide +kernel), PledgeRes.death, thread0, if_true,
      List.set_cons_zero, List.getElem?_cons_zero, Option.some.injEq] at h2
    rw [← h2] at h4
    simp only [List.cons.injEq] at h4
    exact ⟨by rw [← h4.1, size_progOf]; decide +kernel, h4.2.symm⟩
  unfold Fits
  rw [hlen.2]
  simp only [load, List.map_nil, List.sum_nil]
  omega

end Props
