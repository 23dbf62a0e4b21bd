import Verif.Spec.Programs
import Verif.Props.Runtime
import Verif.Props.Plain

/-!
# C119: programs under pledges
-/
set_option autoImplicit false

namespace Props
open Pledge Bpfvm Spec Kernel

/-! ## Helpers -/

theorem atop_iff (l : List Past) (t t' : Thread) :
    Atop l t t' ↔ t'.filters = (l.map fun p => progOf p.ids p.ps p.v.toU32) ++ t.filters := by
  unfold Atop
  simp only [hasPledged_iff]
  exact ⟨fun ⟨fs, h1, h2⟩ => by rw [h2, h1], fun h => ⟨_, rfl, h⟩⟩

theorem combine_top (init : BitVec 32) (l : List Past) (d : SeccompData) (h : AllAllow l d) :
    combine init ((l.map fun p => progOf p.ids p.ps p.v.toU32).map fun f => cur f d) = init := by
  induction l with
  | nil => rfl
  | cons p l ih =>
    have hv : cur (progOf p.ids p.ps p.v.toU32) d = 0x7fff0000#32 := by
      rw [cur_progOf]
      have := (allows_iff _ _ _).1 (h p (by simp))
      exact verdict_allowed this.1 this.2
    have := ih fun q hq => h q (by simp [hq])
    simp only [List.map_cons, combine, List.foldl_cons, hv] at this ⊢
    rw [if_neg (show ¬ actionOnly 0x7fff0000#32 < actionOnly init from Int.not_lt.2 (action_le_max init))]
    exact this

/-- Pledges that permit a call do not change its fate, wherever in the stack they are. -/
theorem enter_insert {new old : List Prog} {l : List Past} {t t' : Thread} {d : SeccompData}
    (ht : t.filters = new ++ old) (ht' : t'.filters = new ++ ((l.map fun p => progOf p.ids p.ps p.v.toU32) ++ old))
    (h : AllAllow l d) : enter t' d = enter t d := by
  unfold enter
  rw [ht, ht', runFilters_eq, runFilters_eq, List.map_append, List.map_append, List.map_append, combine_append, combine_append,
    combine_append, combine_top _ l d h]

/-- A pledge in the stack decides how high the action can be. -/
theorem action_at_most {fs : List Prog} {p : Past} (h : progOf p.ids p.ps p.v.toU32 ∈ fs) (d : SeccompData) :
    actionOnly (runFilters fs d) ≤ actionOnly (verdict p.ids p.ps p.v.toU32 d) := by
  rw [runFilters_eq, ← cur_progOf]
  exact (combine_le _ _).2 _ (List.mem_map.2 ⟨_, h, rfl⟩)

theorem outcome_low (r : BitVec 32) (h : actionOnly r ≤ 0x30000) :
    outcome r = .killProcess ∨ outcome r = .killThread ∨ outcome r = .trap := by
  unfold actionOnly at h
  unfold outcome
  simp only
  generalize r &&& 0xffff0000#32 = a at h
  rw [if_neg (by rintro rfl; exact absurd h (by decide))]
  split
  · exact .inr (.inr rfl)
  · rw [if_neg (by rintro rfl; exact absurd h (by decide)), if_neg (by rintro rfl; exact absurd h (by decide)),
      if_neg (by rintro rfl; exact absurd h (by decide)), if_neg (by rintro rfl; exact absurd h (by decide))]
    split
    · exact .inr (.inl rfl)
    · exact .inl rfl

/-- The verdict about a call that is not allowed. -/
theorem verdict_not {ids : Ids} {ps : List Promise} {d : SeccompData} (h : ¬ Allows ids ps d) (v : BitVec 32) :
    verdict ids ps v d = if d.arch = X86_64 then v else 0x80000000#32 := by
  by_cases ha : d.arch = X86_64
  · rw [if_pos ha, verdict_denied ha fun hh => h ((allows_iff _ _ _).2 ⟨ha, hh⟩)]
  · rw [if_neg ha, verdict_foreign ha]; rfl

theorem enter_stopped {fs : List Prog} {t : Thread} (ht : t.filters = fs) {p : Past} (hp : progOf p.ids p.ps p.v.toU32 ∈ fs)
    (hv : Deadly p.v) {d : SeccompData} (h : ¬ Allows p.ids p.ps d) :
    enter t d = .killProcess ∨ enter t d = .killThread ∨ enter t d = .trap := by
  unfold enter
  rw [ht]
  apply outcome_low
  refine Int.le_trans (action_at_most hp d) ?_
  rw [verdict_not h]
  split
  · rcases hv with h | h | h <;> rw [h] <;> decide
  · decide

theorem enter_killed {fs : List Prog} {t : Thread} (ht : t.filters = fs) {p : Past} (hp : progOf p.ids p.ps p.v.toU32 ∈ fs)
    (hv : p.v = .KillProcess) {d : SeccompData} (h : ¬ Allows p.ids p.ps d) : enter t d = .killProcess := by
  have hle := action_at_most hp d
  rw [verdict_not h, hv] at hle
  have h0 : actionOnly (runFilters fs d) ≤ (0x80000000#32).toInt := by
    refine Int.le_trans hle ?_
    split <;> decide
  have h1 : actionOnly (runFilters fs d) = (0x80000000#32).toInt := by
    refine Int.le_antisymm h0 ?_
    show _ ≤ BitVec.toInt _
    exact BitVec.le_toInt _
  have h2 := (action_eq_iff _ _).1 h1
  unfold enter outcome
  rw [ht]
  simp only [h2]
  rw [if_neg (by decide)]
  decide

/-- A step of one life is a step of the other, if the next call has the same fate. -/
theorem step_alike {σ ω ρ : Type} (m : Machine σ ω ρ) {s s' : Life σ ω} (ha : Alike s s')
    (h : ∀ d, s.ended = none → m.asks s.prog = some d → enter s.thread d = enter s'.thread d) :
    Alike (s.step m) (s'.step m) ∧
    ∃ new, (s.step m).thread.filters = new ++ s.thread.filters ∧ (s'.step m).thread.filters = new ++ s'.thread.filters := by
  obtain ⟨x, w, t, ds, o⟩ := s
  obtain ⟨x', w', t', ds', o'⟩ := s'
  obtain ⟨h1, h2, h3, h4⟩ := ha
  simp only at h1 h2 h3 h4 h
  subst h1 h2 h3 h4
  unfold Life.step
  cases o with
  | some o => exact ⟨⟨rfl, rfl, rfl, rfl⟩, [], rfl, rfl⟩
  | none =>
    simp only
    cases hq : m.asks x with
    | none => exact ⟨⟨rfl, rfl, rfl, rfl⟩, [], rfl, rfl⟩
    | some d =>
      simp only
      rw [h d rfl hq]
      cases enter t' d with
      | executed => exact ⟨⟨rfl, rfl, rfl, rfl⟩, _, rfl, rfl⟩
      | _ => exact ⟨⟨rfl, rfl, rfl, rfl⟩, [], rfl, rfl⟩

theorem step_killed {σ ω ρ : Type} (m : Machine σ ω ρ) {s : Life σ ω} {d : SeccompData} (h : s.ended = none) (hq : m.asks s.prog = some d)
    (hk : enter s.thread d = .killProcess ∨ enter s.thread d = .killThread ∨ enter s.thread d = .trap) :
    s.step m = { s with ended := some (enter s.thread d) } := by
  unfold Life.step
  rw [h, hq]
  simp only
  rcases hk with h | h | h <;> rw [h]

/-! ## An instance used beside the theorems -/

/-- A program that writes twice, and then executes another program; the world counts what was done. -/
def writer1 : Machine Nat Nat Nat where
  asks := fun x => if x < 2 then some (mkCall 1 [1, 4096, 5]) else if x = 2 then some (mkCall 59 [4096, 0, 0]) else none
  serves := fun w d => (w + d.nr.toNat, 0)
  installs := fun _ _ => []
  error := fun n => n
  goesOn := fun x r => if r = 0 then x + 1 else 100

theorem atop1 (ps : List Promise) (v : SeccompReturn) : Atop (past1 ps v) thread0 (pledged1 ps v) := (atop_iff _ _ _).2 rfl

theorem bare1 (d : SeccompData) : enter thread0 d = .executed := by show outcome 0x7fff0000#32 = _; decide

theorem write1 : ∀ ids, Allows ids [.StdIO] (mkCall 1 [1, 4096, 5]) := fun ids =>
  (allows_plain (n := 1) ⟨rfl, rfl⟩ [.StdIO] (by decide +kernel) (by decide) (by decide)).2 (by simp)

theorem exec1 : ∀ ids, ¬ Allows ids [.StdIO] (mkCall 59 [4096, 0, 0]) := fun ids h =>
  absurd ((exec_allows _ _ _ (.inl ⟨rfl, rfl⟩)).1 h) (by simp)

/-- Left alone it does its three calls. -/
theorem alone1 : ((Life.new 0 0 thread0).run writer1 2).prog = 2 ∧ ((Life.new 0 0 thread0).run writer1 2).world = 2 ∧
    ((Life.new 0 0 thread0).run writer1 2).ended = none ∧ ((Life.new 0 0 thread0).run writer1 3).world = 61 := by
  refine ⟨?_, ?_, ?_, ?_⟩ <;> simp [Life.run, Life.step, Life.new, writer1, mkCall, enter, runFilters, thread0] <;> decide

theorem early1 (k : Nat) (hk : k < 2) (d : SeccompData) (h : Asks writer1 (.new 0 0 thread0) k d) : d = mkCall 1 [1, 4096, 5] := by
  obtain ⟨_, h⟩ := h
  match k, hk with
  | 0, _ => simpa [Life.run, Life.new, writer1, eq_comm] using h
  | 1, _ =>
    have e : ((Life.new 0 0 thread0).run writer1 1).prog = 1 := by
      simp [Life.run, Life.step, Life.new, writer1, mkCall, enter, runFilters, thread0]; decide
    rw [e] at h
    simpa [writer1, eq_comm] using h

section
variable {σ ω ρ : Type} (m : Machine σ ω ρ) (x : σ) (w : ω) (t t' : Thread) (l : List Past) (ht : Atop l t t')
include ht

theorem alike_run (n : Nat) (h : ∀ k, k < n → ∀ d, Asks m (.new x w t) k d → AllAllow l d) :
    Alike ((Life.new x w t').run m n) ((Life.new x w t).run m n) ∧
    ∃ new, ((Life.new x w t).run m n).thread.filters = new ++ t.filters ∧
      ((Life.new x w t').run m n).thread.filters = new ++ ((l.map fun p => progOf p.ids p.ps p.v.toU32) ++ t.filters) := by
  induction n with
  | zero => exact ⟨⟨rfl, rfl, rfl, rfl⟩, [], rfl, (atop_iff l t t').1 ht⟩
  | succ n ih =>
    obtain ⟨ha, new, h1, h2⟩ := ih fun k hk => h k (by omega)
    have hs := step_alike m (s := (Life.new x w t').run m n) (s' := (Life.new x w t).run m n) ha fun d he hq =>
      enter_insert h1 h2 (h n (by omega) d ⟨ha.2.2.2 ▸ he, ha.1 ▸ hq⟩)
    refine ⟨hs.1, ?_⟩
    obtain ⟨more, h3, h4⟩ := hs.2
    exact ⟨more ++ new, by show ((Life.run m _ n).step m).thread.filters = _; rw [h4, h1, List.append_assoc],
      by show ((Life.run m _ n).step m).thread.filters = _; rw [h3, h2, List.append_assoc]⟩

/-- C119: a program that, left alone, makes only calls that the pledges permit runs under them as it would without: at every step it is at
the same point, in the same world, and has done the same. The filters below the pledges and those that it installs later are any. -/
theorem C119_transparent (h : ∀ n d, Asks m (.new x w t) n d → AllAllow l d) (n : Nat) :
    Alike ((Life.new x w t').run m n) ((Life.new x w t).run m n) :=
  (alike_run m x w t t' l ht n fun k _ => h k).1

omit ht in
/-- Not vacuous: the program of `writer1` under StdIO and Exec. -/
example (n : Nat) : Alike ((Life.new 0 0 (pledged1 [.StdIO, .Exec] .KillProcess)).run writer1 n) ((Life.new 0 0 thread0).run writer1 n) := by
  refine C119_transparent writer1 0 0 _ _ _ (atop1 [.StdIO, .Exec] .KillProcess) (fun n d hd => ?_) n
  have hd : (if _ then some (mkCall 1 [1, 4096, 5]) else if _ then some (mkCall 59 [4096, 0, 0]) else none) = some d := hd.2
  intro p hp
  rw [List.mem_singleton.1 hp]
  split at hd
  · cases hd
    exact (allows_plain (n := 1) ⟨rfl, rfl⟩ [.StdIO] (by decide +kernel) (by decide) (by decide)).2 (by simp)
  · split at hd
    · cases hd
      exact (exec_allows _ _ _ (.inl ⟨rfl, rfl⟩)).2 (by simp)
    · cases hd


/-- C119: if the violations kill, a program under pledges does what it would do without them, up to the first call that is not permitted, and
nothing after it: it is killed there, and the world is left as it was before that call. -/
theorem C119_stopped (hv : ∀ p ∈ l, Deadly p.v) (n : Nat) :
    (Alike ((Life.new x w t').run m n) ((Life.new x w t).run m n) ∧ ∀ k, k < n → ∀ d, Asks m (.new x w t) k d → AllAllow l d) ∨
    ∃ k, k < n ∧ ∃ d, Asks m (.new x w t) k d ∧ ¬ AllAllow l d ∧ (∀ j, j < k → ∀ e, Asks m (.new x w t) j e → AllAllow l e) ∧
      ((Life.new x w t').run m n).prog = ((Life.new x w t).run m k).prog ∧
      ((Life.new x w t').run m n).world = ((Life.new x w t).run m k).world ∧
      ((Life.new x w t').run m n).did = ((Life.new x w t).run m k).did ∧
      ∃ o, ((Life.new x w t').run m n).ended = some o ∧ (o = .killProcess ∨ o = .killThread ∨ o = .trap) ∧
        ((∀ p ∈ l, p.v = .KillProcess) → o = .killProcess) := by
  induction n with
  | zero => exact .inl ⟨⟨rfl, rfl, rfl, rfl⟩, fun k hk => absurd hk (by omega)⟩
  | succ n ih =>
    rcases ih with ⟨_, hall⟩ | ⟨k, hk, d, h1, h2, h3, h4, h5, h6, o, h7, h8⟩
    · by_cases hn : ∀ d, Asks m (.new x w t) n d → AllAllow l d
      · have hall : ∀ k, k < n + 1 → ∀ d, Asks m (.new x w t) k d → AllAllow l d := fun k hk => by
          rcases Nat.lt_succ_iff_lt_or_eq.1 hk with h | rfl
          · exact hall k h
          · exact hn
        exact .inl ⟨(alike_run m x w t t' l ht (n + 1) hall).1, hall⟩
      · right
        obtain ⟨d, hn⟩ := Classical.not_forall.1 hn
        obtain ⟨ha, hn⟩ := Classical.not_imp.1 hn
        obtain ⟨hal, new, _, hf⟩ := alike_run m x w t t' l ht n hall
        refine ⟨n, by omega, d, ha, hn, hall, ?_⟩
        obtain ⟨p, hn⟩ := Classical.not_forall.1 hn
        obtain ⟨hp, hn⟩ := Classical.not_imp.1 hn
        have hk := enter_stopped hf (List.mem_append_right _ (List.mem_append_left _ (List.mem_map.2 ⟨p, hp, rfl⟩))) (hv p hp) hn
        have hstep : (Life.new x w t').run m (n + 1) =
            { (Life.new x w t').run m n with ended := some (enter ((Life.new x w t').run m n).thread d) } := by
          exact step_killed m (hal.2.2.2 ▸ ha.1) (by rw [hal.1]; exact ha.2) hk
        rw [hstep]
        exact ⟨hal.1, hal.2.1, hal.2.2.1, _, rfl, hk, fun hkp =>
          enter_killed hf (List.mem_append_right _ (List.mem_append_left _ (List.mem_map.2 ⟨p, hp, rfl⟩))) (hkp p hp) hn⟩
    · right
      refine ⟨k, by omega, d, h1, h2, h3, ?_⟩
      have hstep : (Life.new x w t').run m (n + 1) = (Life.new x w t').run m n := by
        show ((Life.new x w t').run m n).step m = _
        conv => lhs; unfold Life.step
        rw [h7]
      rw [hstep]
      exact ⟨h4, h5, h6, o, h7, h8⟩

omit ht in
/-- Not vacuous: the program of `writer1` under StdIO writes twice and is killed when it executes. -/
example : ((Life.new 0 0 (pledged1 [.StdIO] .KillProcess)).run writer1 3).world = 2 ∧
    ((Life.new 0 0 (pledged1 [.StdIO] .KillProcess)).run writer1 3).ended = some .killProcess := by
  have hno : ¬ AllAllow (past1 [.StdIO] .KillProcess) (mkCall 59 [4096, 0, 0]) := fun h => exec1 _ (h _ (List.mem_singleton.2 rfl))
  have hyes : AllAllow (past1 [.StdIO] .KillProcess) (mkCall 1 [1, 4096, 5]) := fun p hp => by
    rw [List.mem_singleton.1 hp]; exact write1 _
  rcases C119_stopped writer1 0 0 _ _ _ (atop1 [.StdIO] .KillProcess) (by simp [past1, Deadly]) 3 with
    ⟨_, h⟩ | ⟨k, hk, d, h1, h2, _, _, h3, _, o, h4, _, h5⟩
  · exact absurd (h 2 (by omega) _ ⟨alone1.2.2.1, by rw [alone1.1]; rfl⟩) hno
  · have h6 : k = 2 := Classical.byContradiction fun hc => h2 (early1 k (by omega) d h1 ▸ hyes)
    subst h6
    rw [h3, h4, h5 (by simp [past1])]
    exact ⟨alone1.2.1, rfl⟩


/-- C119: whatever a program under pledges does, all that it does to the world is done by calls that every pledge permits whose violation
stops calls. -/
theorem C119_mediated (n : Nat) :
    ((Life.new x w t').run m n).world = ((Life.new x w t').run m n).did.foldl (fun w d => (m.serves w d).1) w ∧
    ∀ d ∈ ((Life.new x w t').run m n).did, ∀ p ∈ l, PayloadFits p.v → ¬ Loose p.v → Allows p.ids p.ps d := by
  have key : ((Life.new x w t').run m n).world = ((Life.new x w t').run m n).did.foldl (fun w d => (m.serves w d).1) w ∧
      (∃ new, ((Life.new x w t').run m n).thread.filters = new ++ ((l.map fun p => progOf p.ids p.ps p.v.toU32) ++ t.filters)) ∧
      ∀ d ∈ ((Life.new x w t').run m n).did, ∀ p ∈ l, PayloadFits p.v → ¬ Loose p.v → Allows p.ids p.ps d := by
    induction n with
    | zero => exact ⟨rfl, ⟨[], (atop_iff l t t').1 ht⟩, fun d hd => by cases hd⟩
    | succ n ih =>
      have hrun : (Life.new x w t').run m (n + 1) = ((Life.new x w t').run m n).step m := rfl
      rw [hrun]
      generalize (Life.new x w t').run m n = s at ih
      obtain ⟨h1, ⟨new, h2⟩, h3⟩ := ih
      unfold Life.step
      split
      · rename_i d _ _
        split
        · rename_i he
          refine ⟨?_, ⟨m.installs s.world d ++ new, by simp only; rw [h2, List.append_assoc]⟩, ?_⟩
          · simp only [List.foldl_append, List.foldl_cons, List.foldl_nil, ← h1]
          · intro e hd p hp hf hl
            rcases List.mem_append.1 hd with hd | hd
            · exact h3 e hd p hp hf hl
            · rw [List.mem_singleton.1 hd]
              refine Classical.byContradiction fun hn => ?_
              have hle := action_at_most (p := p) (fs := s.thread.filters)
                (by rw [h2]; exact List.mem_append_right _ (List.mem_append_left _ (List.mem_map.2 ⟨p, hp, rfl⟩))) d
              rw [verdict_not hn] at hle
              have hlow : actionOnly (if d.arch = X86_64 then p.v.toU32 else 0x80000000#32) ≤ 0x7ff00000 := by
                split
                · generalize p.v = v at hf hl
                  cases v with
                  | Errno e =>
                    unfold actionOnly
                    rw [show (SeccompReturn.Errno e).toU32 = 0x00050000#32 ||| e from rfl, or_hi _ e hf]
                    decide
                  | Trace e =>
                    unfold actionOnly
                    rw [show (SeccompReturn.Trace e).toU32 = 0x7ff00000#32 ||| e from rfl, or_hi _ e hf]
                    decide
                  | Log => exact absurd (.inl rfl) hl
                  | Allow => exact absurd (.inr rfl) hl
                  | _ => decide
                · decide
              unfold enter at he
              rcases (outcome_executed _).1 he with h | h <;> rw [h] at hle <;> exact absurd (Int.le_trans hle hlow) (by decide)
        · exact ⟨h1, ⟨new, h2⟩, h3⟩
        · exact ⟨h1, ⟨new, h2⟩, h3⟩
      · exact ⟨h1, ⟨new, h2⟩, h3⟩
  exact ⟨key.1, key.2.2⟩

omit ht in
/-- Not vacuous: after any number of steps the program of `writer1` under StdIO has done nothing but what StdIO permits. -/
example (n : Nat) : ∀ d ∈ ((Life.new 0 0 (pledged1 [.StdIO] (.Errno 1))).run writer1 n).did, Allows ⟨100, 100⟩ [.StdIO] d := fun d hd =>
  (C119_mediated writer1 0 0 _ _ _ (atop1 [.StdIO] (.Errno 1)) n).2 d hd _ (List.mem_singleton.2 rfl) (by simp [PayloadFits])
    (by simp [Loose])


/-- C119: promising more never breaks a program: if it is not killed under pledges that kill, it runs in the same way under pledges that kill
and permit all that those permit. -/
theorem C119_more (hv : ∀ p ∈ l, Deadly p.v) (l' : List Past) (t'' : Thread) (ht' : Atop l' t t'')
    (hm : ∀ d, AllAllow l d → AllAllow l' d) (n : Nat) (ha : ((Life.new x w t').run m n).ended = none) :
    Alike ((Life.new x w t'').run m n) ((Life.new x w t').run m n) := by
  rcases C119_stopped m x w t t' l ht hv n with ⟨h1, h2⟩ | ⟨k, _, d, _, _, _, _, _, _, o, h, _, _⟩
  · have h3 := (alike_run m x w t t'' l' ht' n fun k hk d hd => hm d (h2 k hk d hd)).1
    exact ⟨h3.1.trans h1.1.symm, h3.2.1.trans h1.2.1.symm, h3.2.2.1.trans h1.2.2.1.symm, h3.2.2.2.trans h1.2.2.2.symm⟩
  · rw [ha] at h; cases h

omit ht in
/-- Not vacuous: what the program of `writer1` does first it does under StdIO, and so under StdIO and RPath. -/
example : Alike ((Life.new 0 0 (pledged1 [.StdIO, .RPath] .KillProcess)).run writer1 2)
    ((Life.new 0 0 (pledged1 [.StdIO] .KillProcess)).run writer1 2) := by
  refine C119_more writer1 0 0 _ _ _ (atop1 [.StdIO] .KillProcess) (by simp [past1, Deadly]) _ _ (atop1 [.StdIO, .RPath] .KillProcess)
    (fun d h p hp => ?_) 2 ?_
  · rw [List.mem_singleton.1 hp]
    have := (allows_iff _ _ _).1 (h _ (List.mem_singleton.2 rfl))
    refine (allows_iff _ _ _).2 ⟨this.1, ?_⟩
    rcases this.2 with h | ⟨f, hf, h⟩
    · exact .inl h
    · exact .inr ⟨f, by simpa using .inl (List.mem_singleton.1 hf), h⟩
  · have h := (alike_run writer1 0 0 _ _ _ (atop1 [.StdIO] .KillProcess) 2 fun k hk d hd p hp => by
      rw [List.mem_singleton.1 hp, early1 k hk d hd]; exact write1 _).1
    rw [h.2.2.2]
    exact alone1.2.2.1


omit ht in
theorem enter_errno {fs : Thread} {e : BitVec 32} (he : e.toNat ≤ 4095) (hv : ∀ p ∈ l, p.v = .Errno e)
    (hf : fs.filters = l.map fun p => progOf p.ids p.ps p.v.toU32) {d : SeccompData} (hd : d.arch = X86_64) (hn : ¬ AllAllow l d) :
    enter fs d = .errno e.toNat := by
  have hfits : PayloadFits (.Errno e) := show e.toNat < 2 ^ 16 by omega
  have hact : actionOnly (SeccompReturn.Errno e).toU32 = (0x50000#32).toInt := by
    unfold actionOnly
    rw [show (SeccompReturn.Errno e).toU32 = 0x00050000#32 ||| e from rfl, or_hi _ e hfits]
    decide
  have hverd : ∀ p ∈ l, verdict p.ids p.ps p.v.toU32 d = 0x7fff0000#32 ∨
      verdict p.ids p.ps p.v.toU32 d = (SeccompReturn.Errno e).toU32 := by
    intro p hp
    by_cases h : Allows p.ids p.ps d
    · have h := (allows_iff _ _ _).1 h
      exact .inl (verdict_allowed h.1 h.2)
    · right; rw [verdict_not h, if_pos hd, hv p hp]
  obtain ⟨p, hn⟩ := Classical.not_forall.1 hn
  obtain ⟨hp, hn⟩ := Classical.not_imp.1 hn
  have hle := action_at_most (p := p) (fs := fs.filters) (by rw [hf]; exact List.mem_map.2 ⟨p, hp, rfl⟩) d
  rw [verdict_not hn, if_pos hd, hv p hp, hact] at hle
  have hr : runFilters fs.filters d = (SeccompReturn.Errno e).toU32 := by
    rw [runFilters_pledged ((hasPledged_iff _ _).2 hf)] at hle ⊢
    rcases combine_mem 0x7fff0000#32 (l.map fun p => verdict p.ids p.ps p.v.toU32 d) with h | h
    · rw [h] at hle; exact absurd hle (by decide)
    · obtain ⟨q, hq, h⟩ := List.mem_map.1 h
      rw [← h] at hle ⊢
      rcases hverd q hq with h' | h'
      · rw [h'] at hle; exact absurd hle (by decide)
      · exact h'
  unfold enter
  rw [hr, outcome_of_fits _ hfits]
  show Outcome.errno (min e.toNat 4095) = _
  rw [Nat.min_eq_left he]

omit ht in
/-- C119: to a program that makes native calls and installs no filters, pledges with the violation `Errno(e)` look like a system that fails the
calls that not all of them permit. -/
theorem C119_errors (e : BitVec 32) (he : e.toNat ≤ 4095) (hv : ∀ p ∈ l, p.v = .Errno e) (ht : t.filters = []) (ht' : HasPledged t' l)
    (hn : ∀ s d, m.asks s = some d → d.arch = X86_64) (hi : ∀ w d, m.installs w d = []) (n : Nat) :
    ((Life.new x w t').run m n).prog = ((Life.new x w t).run (refusing m l e.toNat) n).prog ∧
    ((Life.new x w t').run m n).world = ((Life.new x w t).run (refusing m l e.toNat) n).world ∧
    ((Life.new x w t').run m n).ended = none := by
  have key : ((Life.new x w t').run m n).prog = ((Life.new x w t).run (refusing m l e.toNat) n).prog ∧
      ((Life.new x w t').run m n).world = ((Life.new x w t).run (refusing m l e.toNat) n).world ∧
      ((Life.new x w t').run m n).ended = none ∧ ((Life.new x w t).run (refusing m l e.toNat) n).ended = none ∧
      ((Life.new x w t').run m n).thread.filters = (l.map fun p => progOf p.ids p.ps p.v.toU32) ∧
      ((Life.new x w t).run (refusing m l e.toNat) n).thread.filters = [] := by
    induction n with
    | zero => exact ⟨rfl, rfl, rfl, rfl, (hasPledged_iff _ _).1 ht', ht⟩
    | succ n ih =>
      show (((Life.new x w t').run m n).step m).prog = (((Life.new x w t).run (refusing m l e.toNat) n).step (refusing m l e.toNat)).prog ∧
        (((Life.new x w t').run m n).step m).world = (((Life.new x w t).run (refusing m l e.toNat) n).step (refusing m l e.toNat)).world ∧
        (((Life.new x w t').run m n).step m).ended = none ∧
        (((Life.new x w t).run (refusing m l e.toNat) n).step (refusing m l e.toNat)).ended = none ∧
        (((Life.new x w t').run m n).step m).thread.filters = _ ∧
        (((Life.new x w t).run (refusing m l e.toNat) n).step (refusing m l e.toNat)).thread.filters = []
      revert ih
      generalize (Life.new x w t').run m n = s
      generalize (Life.new x w t).run (refusing m l e.toNat) n = s'
      rintro ⟨h1, h2, h3, h4, h5, h6⟩
      obtain ⟨a, b, c, f, g⟩ := s
      obtain ⟨a', b', c', f', g'⟩ := s'
      simp only at h1 h2 h3 h4 h5 h6
      subst h1 h2 h3 h4
      unfold Life.step
      simp only [refusing]
      cases hq : m.asks a with
      | none => exact ⟨rfl, rfl, rfl, rfl, h5, h6⟩
      | some d =>
        have hx : enter c' d = .executed := by unfold enter; rw [h6]; show outcome 0x7fff0000#32 = _; decide
        simp only [hx]
        by_cases hal : AllAllow l d
        · have hx' : enter c d = .executed := enter_allowed ((hasPledged_iff _ _).2 h5) hal
          rw [hx']
          simp only [if_pos hal, hi, List.nil_append]
          exact ⟨trivial, trivial, trivial, trivial, h5, h6⟩
        · rw [enter_errno l he hv h5 (hn a d hq) hal]
          simp only [if_neg hal, hi, List.nil_append]
          exact ⟨trivial, trivial, trivial, trivial, h5, h6⟩
  exact ⟨key.1, key.2.1, key.2.2.1⟩

/-- Not vacuous: StdIO with the error EPERM. -/
example := C119_errors writer1 0 0 thread0 (pledged1 [.StdIO] (.Errno 1)) (past1 [.StdIO] (.Errno 1)) 1 (by decide) (by simp [past1]) rfl
  (has1 _ _) (fun x d h => by
    simp only [writer1] at h
    split at h
    · cases h; rfl
    · split at h <;> cases h; rfl) (fun _ _ => rfl)


omit ht in
/-- C119: what `pledge` returns Ok for: from then on the program runs as it would have run without the call, up to the first call that is not
promised, and is killed there. -/
theorem C119_pledge (b : Build) (env : Env) (l0 : List Past) (hl : HasPledged t l0) (hk : ∀ p ∈ l0, p.v = .KillProcess) (ps : List Promise)
    (hok : (pledge b env t ps).2 = .ok) (n : Nat) :
    (Alike ((Life.new x w (pledge b env t ps).1).run m n) ((Life.new x w t).run m n) ∧
      ∀ k, k < n → ∀ d, Asks m (.new x w t) k d → Allows ⟨t.pid, t.tid⟩ ps d) ∨
    ∃ k, k < n ∧ ∃ d, Asks m (.new x w t) k d ∧ ¬ Allows ⟨t.pid, t.tid⟩ ps d ∧
      (∀ j, j < k → ∀ e, Asks m (.new x w t) j e → Allows ⟨t.pid, t.tid⟩ ps e) ∧
      ((Life.new x w (pledge b env t ps).1).run m n).prog = ((Life.new x w t).run m k).prog ∧
      ((Life.new x w (pledge b env t ps).1).run m n).world = ((Life.new x w t).run m k).world ∧
      ((Life.new x w (pledge b env t ps).1).run m n).did = ((Life.new x w t).run m k).did ∧
      ((Life.new x w (pledge b env t ps).1).run m n).ended = some .killProcess := by
  obtain ⟨prog, hp, hf, _⟩ := C49_ok_means_enforced_partial b env t l0 ps .KillProcess hl
    (fun p hp => .inr (by rw [hk p hp]; decide)) hok
  have hat : Atop [⟨⟨t.pid, t.tid⟩, ps, .KillProcess⟩] t (pledge b env t ps).1 := by
    rw [atop_iff]
    rw [promisesToProg_eq] at hp
    injection hp with hp
    subst hp
    exact hf
  have hone : ∀ d, AllAllow [⟨⟨t.pid, t.tid⟩, ps, .KillProcess⟩] d ↔ Allows ⟨t.pid, t.tid⟩ ps d := fun d => by simp [AllAllow]
  have h := C119_stopped m x w t _ _ hat (by intro p hp; rw [List.mem_singleton.1 hp]; exact .inl rfl) n
  simp only [hone] at h
  rcases h with h | ⟨k, hk, d, h1, h2, h3, h4, h5, h6, o, h7, _, h8⟩
  · exact .inl h
  · refine .inr ⟨k, hk, d, h1, h2, h3, h4, h5, h6, ?_⟩
    rw [h7, h8 fun p hp => by rw [List.mem_singleton.1 hp]]

/-- Not vacuous: the first pledge of a thread. -/
example := C119_pledge writer1 0 0 thread0 ⟨true⟩ calm [] ((hasPledged_iff _ _).2 rfl) (by simp) [.StdIO] (by
  obtain ⟨_, _, h⟩ := C49_first_pledge ⟨true⟩ calm thread0 rfl [.StdIO] .KillProcess (by decide) rfl rfl
  exact congrArg Prod.snd h) 3

end

end Props
