import Verif.Proofs.Whence
import Verif.Props.Table

/-!
# C98: where the filters of a thread come from
-/
set_option autoImplicit false

namespace Props
open Pledge Bpfvm Spec Kernel

/-- A step of a call that changes the filters adds the filter that was promised, and is the last one. -/
theorem next_installs (s : System) (ms : List Move) (hs : Fresh s) (ho : OnlyLibrary ms) (k : Nat) (t : Thread) (a : Act)
    (rest : List Act) (line : List Ids) (hk : ((quiet s).run ms)[k]? = some ⟨t, a :: rest, line⟩) :
    (a.next t).1.filters = t.filters ∨
    ∃ (f : Prog) (p : Told), (a.next t).1.filters = f :: t.filters ∧ (a.next t).2 = .inr .ok ∧ Decides f p ∧ p.ps = a.ps ∧ p.v = a.v ∧
      p.pids.length = p.ps.count .StdIO ∧ p.tids.length = p.ps.count .StdIO ∧
      (∀ x ∈ p.pids, (∃ i ∈ line, i.pid = x) ∨ MadeUp ms p.ps p.v x) ∧
      (∀ x ∈ p.tids, (∃ i ∈ line, i.tid = x) ∨ MadeUp ms p.ps p.v x) := by
  have h := ran false s ms hs ho (by simp) _ (List.mem_of_getElem? hk)
  obtain ⟨⟨i, b, env, h3⟩, hph⟩ := h.acts a (by simp)
  cases hp : a.phase with
  | start =>
    left
    unfold Act.next
    simp only [hp, mapM_filters]
  | making n todo codes =>
    left
    unfold Act.next
    simp only [hp]
    cases todo with
    | cons f todo =>
      simp only
      split <;> rfl
    | nil =>
      simp only [bpfHeader_eq, bpfFooter_eq]
      have := (nnp_fields (a.env.onTrap a.env.trapRet.1) t (recNnp a.env) a.env.nnpFault).2.2.1
      split <;> exact this
  | armed prog =>
    rw [hp] at hph
    obtain ⟨l, rfl, hl, hsrc, _⟩ := hph
    have h4 : Src false line a.q l := hsrc.resolve_right (by simp)
    unfold Act.next
    simp only [hp]
    by_cases he : enter t (recSeccomp a.env) = .executed
    · simp only [syscall, he]
      rcases setSeccomp_mix a.env.seccompFault l a.v.toU32 t with ⟨g, _⟩ | ⟨g1, e, g2⟩
      · right
        have hlen := pidsOf_length l a.ps hl
        refine ⟨mixProg l a.v.toU32, ⟨pidsOf l, tidsOf l, a.ps, a.v⟩, ?_, ?_, mix_decides l a.ps a.v hl, rfl, rfl, hlen.1, hlen.2, ?_, ?_⟩
        · rw [g]; simp only [checkRet_zero]
        · rw [g]; simp only [checkRet_zero]
        · intro x hx
          obtain ⟨ids, hm, rfl⟩ := (mem_pidsOf _ _).1 hx
          exact ((h4 _ hm).1 rfl).imp id fun ⟨_, k, he⟩ => ⟨i, b, env, a.q, k, h3, he⟩
        · intro x hx
          obtain ⟨ids, hm, rfl⟩ := (mem_tidsOf _ _).1 hx
          exact ((h4 _ hm).2 rfl).imp id fun ⟨_, k, he⟩ => ⟨i, b, env, a.q, k, h3, he⟩
      · left
        simp only [g2, checkRet_err, g1]
    · left
      have hsame : ∀ h' body, (syscall h' t (recSeccomp a.env) body).1 = t := by
        intro h' body
        unfold syscall
        split
        · rename_i hx; exact absurd hx he
        · rfl
        · split <;> rfl
        · rfl
      split <;> simp only [hsame]

/-- Calls and filters have a history. -/
def Storied (c : World) (hs : List Happening) : Prop :=
  ∀ (k : Nat) w, (c.run hs).hands[k]? = some w →
    (∀ x ∈ callsOf w, CalledBy c hs k x.1 x.2) ∧
    ∀ newer f older, w.thread.filters = newer ++ f :: older → ∃ p, Decides f p ∧ PutBy c hs k f older p

theorem storied_step {c : World} (hc : Untouched c) {hs : List Happening} (h : Storied c hs) {m : Happening}
    (ho : NoOthers (hs ++ [m])) : Storied c (hs ++ [m]) := by
  have hrun : c.run (hs ++ [m]) = (c.run hs).step m := by rw [world_append]; rfl
  intro k w' hk
  rw [hrun] at hk
  have hno : ∀ i d h f p, m ≠ .other (.setSeccomp i d h f p) := by
    rintro i d h f p rfl
    exact ho i d h f p (by simp)
  cases step_fate (c.run hs) m hno k w' hk with
  | same w hkw hf hcalls =>
    obtain ⟨h1, h2⟩ := h k w hkw
    refine ⟨fun x hx => (h1 x (hcalls x hx)).more [m], fun newer f older hl => ?_⟩
    obtain ⟨p, g1, g2⟩ := h2 newer f older (by rw [← hf]; exact hl)
    exact ⟨p, g1, g2.more [m]⟩
  | called b env q seed ps v w hm hkw hf hcalls =>
    obtain ⟨h1, h2⟩ := h k w hkw
    refine ⟨fun x hx => ?_, fun newer f older hl => ?_⟩
    · rcases hcalls x hx with rfl | hx
      · exact ⟨k, b, env, q, seed, hs, [], by rw [hm], by simp [forked]⟩
      · exact (h1 x hx).more [m]
    · obtain ⟨p, g1, g2⟩ := h2 newer f older (by rw [← hf]; exact hl)
      exact ⟨p, g1, g2.more [m]⟩
  | went w a rest hm hkw ha he hf hcalls hr =>
    obtain ⟨h1, h2⟩ := h k w hkw
    refine ⟨fun x hx => (h1 x (hcalls x hx)).more [m], fun newer f older hl => ?_⟩
    obtain ⟨ms, e1, e2, _⟩ := run_moves hs c
    rw [untouched_quiet hc] at e1
    have ho1 : NoOthers hs := fun i d h f p hmem => ho i d h f p (List.mem_append_left _ hmem)
    have hold : w'.thread.filters = w.thread.filters → ∃ p, Decides f p ∧ PutBy c (hs ++ [m]) k f older p := by
      intro hsame
      obtain ⟨p, g1, g2⟩ := h2 newer f older (by rw [← hsame]; exact hl)
      exact ⟨p, g1, g2.more [m]⟩
    rcases next_installs c.threads ms (untouched_fresh hc) (derived_library ho1 e2) k w.thread a.act (rest.map Errand.act) w.line
      (by rw [e1, wildOf_get, hkw]; simp only [Option.map_some, busyOf, he, List.map_cons]) with hsame | ⟨f0, p, i1, i2, i3, i4, i5, i6, i7, i8, i9⟩
    · exact hold (by rw [hf, hsame])
    · rw [hf, i1] at hl
      cases newer with
      | cons f1 newer =>
        simp only [List.cons_append, List.cons.injEq] at hl
        obtain ⟨q, g1, g2⟩ := h2 newer f older hl.2
        exact ⟨q, g1, g2.more [m]⟩
      | nil =>
        simp only [List.nil_append, List.cons.injEq] at hl
        obtain ⟨rfl, rfl⟩ := hl
        refine ⟨p, i3, hs, [], k, w, w', a, rest, by rw [hm], hkw, ha, rfl, he, i4.symm, i5.symm, ?_, by rw [← hm]; exact hk,
          by rw [hf, i1], hr _ i2, by simp [kin], i6, i7, fun x hx => (i8 x hx).imp id (derived_madeUp e2),
          fun x hx => (i9 x hx).imp id (derived_madeUp e2)⟩
        rw [i4, i5]
        exact h1 (a.act.ps, a.act.v) (by unfold callsOf; rw [he]; simp)
  | made i w hm hkl hl hi hf hcalls =>
    obtain ⟨h1, h2⟩ := h i w hi
    subst hkl
    refine ⟨fun x hx => (h1 x (hcalls x hx).2).child (hcalls x hx).1 hl, fun newer f older hl' => ?_⟩
    obtain ⟨p, g1, g2⟩ := h2 newer f older (by rw [← hf]; exact hl')
    exact ⟨p, g1, g2.child hm hl⟩

theorem storied {c : World} (hc : Untouched c) (hs : List Happening) (ho : NoOthers hs) : Storied c hs := by
  suffices hgen : ∀ rest before, Storied c before → NoOthers (before ++ rest) → Storied c (before ++ rest) by
    refine hgen hs [] (fun k w hk => ?_) ho
    obtain ⟨h1, _, h3⟩ := hc w (List.mem_of_getElem? hk)
    refine ⟨fun x hx => ?_, fun newer f older hl => ?_⟩
    · simp [callsOf, h1] at hx
    · rw [h3] at hl
      simp at hl
  intro rest
  induction rest with
  | nil => intro before h _; rw [List.append_nil]; exact h
  | cons m rest ih =>
    intro before h ho
    have := ih (before ++ [m]) (storied_step hc h fun i d h f p hm => ho i d h f p (by
      rw [← List.singleton_append, ← List.append_assoc]; exact List.mem_append_left _ hm)) (by simpa using ho)
    simpa using this

/-- C98: every filter of every thread was put there by the last step of a call of `pledge_override` in that thread or in one it descends
from, before the descendant was created, on top of exactly the filters below it now. The filter decides every system call as that call
demanded, and the call was made by the thread that put it there, or by one it was forked from after that. -/
theorem C98_whence (c : World) (hc : Untouched c) (hs : List Happening) (ho : NoOthers hs) (k : Nat) (w : Hand)
    (hk : (c.run hs).hands[k]? = some w) (newer : List Prog) (f : Prog) (older : List Prog) (hf : w.thread.filters = newer ++ f :: older) :
    ∃ p, Decides f p ∧ PutBy c hs k f older p :=
  (storied hc hs ho k w hk).2 newer f older hf

/-- C98, the other direction: whatever filters a thread has, it and its descendants have them ever after, below later ones and in the
same order. -/
theorem C98_kept (c : World) (hs hs' : List Happening) (k : Nat) (w : Hand) (hk : (c.run hs).hands[k]? = some w) (j : Nat)
    (hj : j ∈ kin (c.run hs) hs' [k]) (w' : Hand) (hj' : (c.run (hs ++ hs')).hands[j]? = some w') :
    ∃ later, w'.thread.filters = later ++ w.thread.filters := by
  rw [world_append] at hj'
  have hg := kin_grown hs' (c.run hs) [k] w.thread (by
      intro i hi u hu
      rw [List.mem_singleton.1 hi, hk] at hu
      cases hu
      exact .refl _) (by
      intro i hi
      rw [List.mem_singleton.1 hi]
      exact (List.getElem?_eq_some_iff.1 hk).1) j hj w' hj'
  obtain ⟨later, hl⟩ := hg.1
  exact ⟨later, hl.symm⟩

/-- C98: a thread that never calls `pledge_override`, and descends from no thread that called it before, has no filter, whatever all
others do. -/
theorem C98_bystander (c : World) (hc : Untouched c) (hs : List Happening) (ho : NoOthers hs) (k : Nat) (w : Hand)
    (hk : (c.run hs).hands[k]? = some w)
    (hno : ∀ i b env q seed ps v before after, hs = before ++ .enter i b env q seed ps v :: after →
      k ∉ kin (c.run (before ++ [.enter i b env q seed ps v])) after [i]) : w.thread.filters = [] := by
  cases hl : w.thread.filters with
  | nil => rfl
  | cons f older =>
    exfalso
    obtain ⟨p, _, before, after, j, u, u', a, rest, h1, _, _, _, _, _, _, h2, _, _, _, h3, _⟩ := C98_whence c hc hs ho k w hk [] f older hl
    obtain ⟨i, b, env, q, seed, b1, a1, hb, h4⟩ := h2
    refine hno i b env q seed p.ps p.v b1 (a1 ++ .go j :: after) (by rw [h1, hb]; simp) ?_
    rw [kin_append]
    have hr : c.run before = (c.run (b1 ++ [.enter i b env q seed p.ps p.v])).run a1 := by
      rw [hb, ← world_append]; simp
    rw [← hr]
    simp only [kin]
    -- `j` is among those that descend from the caller, and `k` descends from `j`
    exact kin_mono _ _ _ _ (fun x hx => by rw [List.mem_singleton.1 hx]; exact forked_kin _ _ _ _ h4) k h3

/-! ## a concrete world -/

set_option maxRecDepth 100000 in
/-- In `crowd` all three threads get a filter; the one of the third comes from a call that its maker made before making it. -/
example : ((world0.run crowd).hands.map fun w => w.thread.filters.length) = [1, 1, 1] ∧
    crowd = crowd.take 1 ++ .enter 0 ⟨true⟩ calm (fun _ => ⟨0, fun _ => 0, 0⟩) ⟨0, fun _ => 0, .panics⟩ [.StdIO, .Exec] .KillProcess ::
      crowd.drop 2 ∧
    2 ∈ forked (world0.run (crowd.take 2)) (crowd.drop 2) [0] := by
  refine ⟨by decide +kernel, rfl, by decide +kernel⟩

/-- The first thread makes a second one and only then calls `pledge_override`: the second one is a bystander. -/
example : 1 ∉ kin (world0.run [.clone 0 (mkCall 56 []) none 101, anyCall 0]) (List.replicate 130 (.go 0)) [0] ∧
    ((world0.run ([.clone 0 (mkCall 56 []) none 101, anyCall 0] ++ List.replicate 130 (.go 0))).hands.map
      fun w => w.thread.filters.length) = [1, 0] := by
  decide +kernel

end Props
