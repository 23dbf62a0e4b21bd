import Verif.Props.Redundant
import Verif.Props.Reduce

/-!
# C103: comparing promise lists
-/
set_option autoImplicit false

namespace Props
open Pledge Bpfvm Spec Kernel

/-- A thread with the given ids may do at most what `ps` allows if it has promised `qs`. -/
def AtMost (ids : Ids) (qs ps : List Promise) : Prop := ∀ d, Allows ids qs d → Allows ids ps d

instance (ps : List Promise) (p : Promise) : Decidable (Covered ps p) := by
  cases p <;> simp only [Covered] <;> infer_instance

/-- C103: one list of promises allows at most what another one does exactly if each of its promises is in the other list or is one of
those that the other list makes redundant (C73). It does not matter whose ids are in the filter. -/
theorem C103_at_most (ids : Ids) (qs ps : List Promise) : AtMost ids qs ps ↔ ∀ q ∈ qs, q ∈ ps ∨ Covered ps q := by
  constructor
  · intro h q hq
    refine essential (ids := ids) fun d hd => ?_
    obtain ⟨h1, h2 | ⟨r, hr, h2⟩⟩ := (allows_iff _ _ _).1 hd
    · exact (allows_iff _ _ _).2 ⟨h1, .inl h2⟩
    · rcases List.mem_cons.1 hr with rfl | hr
      · exact h d (permits_allows h1 hq h2)
      · exact permits_allows h1 hr h2
  · intro h d hd
    obtain ⟨h1, h2 | ⟨r, hr, h2⟩⟩ := (allows_iff _ _ _).1 hd
    · exact (allows_iff _ _ _).2 ⟨h1, .inl h2⟩
    · exact (C73_redundant_iff r ps).2 (h r hr) ids d (permits_allows h1 (by simp) h2)

/-- C103: which lists allow the same calls. -/
theorem C103_same (ids : Ids) (qs ps : List Promise) :
    (∀ d, Allows ids qs d ↔ Allows ids ps d) ↔ (∀ q ∈ qs, q ∈ ps ∨ Covered ps q) ∧ ∀ p ∈ ps, p ∈ qs ∨ Covered qs p := by
  rw [← C103_at_most ids, ← C103_at_most ids]
  exact ⟨fun h => ⟨fun d => (h d).1, fun d => (h d).2⟩, fun h d => ⟨h.1 d, h.2 d⟩⟩

/-- C103: the second pledge of a thread changes nothing exactly if its list allows at least what the first one's does. -/
theorem C103_second_pledge (b : Build) (env : Env) (t t' : Thread) (qs ps : List Promise)
    (hl : HasPledged t [⟨⟨t.pid, t.tid⟩, qs, .KillProcess⟩]) (hok : pledge b env t ps = (t', .ok)) :
    (∀ d, enter t' d = enter t d) ↔ ∀ q ∈ qs, q ∈ ps ∨ Covered ps q := by
  have hk : ∀ q ∈ [(⟨⟨t.pid, t.tid⟩, qs, .KillProcess⟩ : Past)], q.v = .KillProcess := by simp
  have hok' : pledgeOverride b env t ps .KillProcess = (t', .ok) := hok
  obtain ⟨prog, hp, hf, _⟩ := C49_ok_means_enforced_partial b env t _ ps .KillProcess hl
    (fun p hp => .inr (by rw [hk p hp]; decide)) (by rw [hok'])
  rw [hok'] at hf
  have hl' : HasPledged t' [⟨⟨t.pid, t.tid⟩, ps, .KillProcess⟩, ⟨⟨t.pid, t.tid⟩, qs, .KillProcess⟩] := by
    rw [hasPledged_iff] at hl ⊢
    rw [promisesToProg_eq] at hp
    injection hp with hp
    rw [hf, List.map_cons, ← hl, ← hp]
  have f1 := default_fate hl hk
  have f2 := default_fate hl' (by simp)
  rw [← C103_at_most ⟨t.pid, t.tid⟩]
  constructor
  · intro h d hd
    have h1 := (f1 d).1 (by simpa using hd)
    rw [← h d] at h1
    apply Classical.byContradiction
    intro hn
    have h2 := (f2 d).2 ⟨⟨⟨t.pid, t.tid⟩, ps, .KillProcess⟩, by simp, hn⟩
    rw [h2] at h1
    cases h1
  · intro h d
    by_cases hd : Allows ⟨t.pid, t.tid⟩ qs d
    · rw [(f1 d).1 (by simpa using hd), (f2 d).1 (by simpa using ⟨h d hd, hd⟩)]
    · rw [(f1 d).2 ⟨⟨⟨t.pid, t.tid⟩, qs, .KillProcess⟩, by simp, hd⟩, (f2 d).2 ⟨⟨⟨t.pid, t.tid⟩, qs, .KillProcess⟩, by simp, hd⟩]

/-- The promises that both lists contain or make redundant. -/
def common (qs ps : List Promise) : List Promise :=
  [Promise.Default, .StdIO, .RPath, .WPath, .CPath, .DPath, .FLock, .FAttr, .Inet, .Unix, .Dns, .Tty, .RecvFd, .SendFd, .Proc, .Id, .Chown,
    .SetTime, .ProtExec, .Exec, .VmInfo, .TmpPath, .Unveil].filter fun p =>
    decide (p ∈ qs ∨ Covered qs p) && decide (p ∈ ps ∨ Covered ps p)

/-- C103: the largest list of promises below two given ones are the promises that both contain or make redundant. -/
theorem C103_common (ids : Ids) (rs qs ps : List Promise) :
    (AtMost ids rs qs ∧ AtMost ids rs ps) ↔ AtMost ids rs (common qs ps) := by
  have hm : ∀ p, p ∈ common qs ps ↔ (p ∈ qs ∨ Covered qs p) ∧ (p ∈ ps ∨ Covered ps p) := by
    intro p
    unfold common
    rw [List.mem_filter]
    simp only [Bool.and_eq_true, decide_eq_true_eq]
    exact ⟨fun h => h.2, fun h => ⟨by cases p <;> decide, h⟩⟩
  have h1 : AtMost ids (common qs ps) qs := (C103_at_most _ _ _).2 fun q hq => ((hm q).1 hq).1
  have h2 : AtMost ids (common qs ps) ps := (C103_at_most _ _ _).2 fun q hq => ((hm q).1 hq).2
  constructor
  · intro ⟨g1, g2⟩
    rw [C103_at_most] at g1 g2 ⊢
    exact fun q hq => .inl ((hm q).2 ⟨g1 q hq, g2 q hq⟩)
  · exact fun h => ⟨fun d hd => h1 d (h d hd), fun d hd => h2 d (h d hd)⟩

/-- C103: two pledges one after the other are not the same as one with what they have in common: here both allow stat, and the promise
they have in common does not. -/
theorem C103_twice_is_more (ids : Ids) : ∃ d, Allows ids [.StdIO, .RPath] d ∧ Allows ids [.StdIO, .WPath] d ∧
    ¬ Allows ids (common [.StdIO, .RPath] [.StdIO, .WPath]) d := by
  have hc : IsCall (mkCall 4 []) 4 := ⟨rfl, rfl⟩
  refine ⟨mkCall 4 [], ?_⟩
  have hf : freeOf 4 = [.RPath, .WPath] := by decide +kernel
  have hcm : common [.StdIO, .RPath] [.StdIO, .WPath] = [.Default, .StdIO, .VmInfo] := by decide
  rw [hcm, allows_plain hc _ hf (by decide) (by decide), allows_plain hc _ hf (by decide) (by decide),
    allows_plain hc _ hf (by decide) (by decide)]
  decide

/-! ## the hypotheses can be met -/

example (ids : Ids) : AtMost ids [.StdIO, .VmInfo, .Dns] [.RPath, .Inet, .StdIO] ∧ ¬ AtMost ids [.StdIO, .Dns] [.StdIO, .Inet] := by
  rw [C103_at_most, C103_at_most]; decide

/-- A thread that pledges StdIO and RPath and then StdIO: the second pledge has an effect. -/
example : ∃ b env t t', HasPledged t [⟨⟨t.pid, t.tid⟩, [.StdIO, .RPath], .KillProcess⟩] ∧ pledge b env t [.StdIO] = (t', .ok) ∧
    ¬ ∀ d, enter t' d = enter t d := by
  obtain ⟨t', h⟩ := okPledges_two
  have key : ∀ l, OkPledges thread0 l t' → l = [⟨⟨100, 100⟩, [.StdIO], .KillProcess⟩, ⟨⟨100, 100⟩, [.StdIO, .RPath], .KillProcess⟩] →
      ∃ b env t, HasPledged t [⟨⟨t.pid, t.tid⟩, [.StdIO, .RPath], .KillProcess⟩] ∧ pledge b env t [.StdIO] = (t', .ok) := by
    intro l h hl
    cases h with
    | none => cases hl
    | more l u u' b env ps v h1 h2 =>
      injection hl with e1 e2
      injection e1 with e3 e4 e5
      injection e3 with e6 e7
      subst e4 e5 e2
      refine ⟨b, env, u, ?_, h2⟩
      have := okPledges_hasPledged thread0 u _ rfl h1 (by simp)
      rw [e6, e7]
      exact this
  obtain ⟨b, env, t, h1, h2⟩ := key _ h rfl
  refine ⟨b, env, t, t', h1, h2, ?_⟩
  rw [C103_second_pledge b env t t' _ _ h1 h2]
  decide

end Props
