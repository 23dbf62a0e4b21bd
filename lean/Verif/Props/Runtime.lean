import Verif.Spec.Runtime
import Verif.Props.Handlers
import Verif.Props.Rules
import Verif.Props.Reach

/-!
# C117, C118: starting threads, processes and programs after a pledge
-/
set_option autoImplicit false

namespace Props
open Pledge Bpfvm Spec Kernel

/-! ## Helpers -/

theorem deadly_fits {v : SeccompReturn} (h : Deadly v) : PayloadFits v := by
  rcases h with rfl | rfl | rfl <;> trivial

/-- Every pledge allows the call. -/
theorem enter_allowed {t : Thread} {l : List Past} (hl : HasPledged t l) {d : SeccompData} (h : ∀ p ∈ l, Allows p.ids p.ps d) :
    enter t d = .executed := by
  unfold enter
  rw [runFilters_pledged hl, outcome_executed]
  right
  rcases combine_mem 0x7fff0000#32 (l.map fun p => verdict p.ids p.ps p.v.toU32 d) with hm | hm
  · rw [hm]; rfl
  · obtain ⟨p, hp, he⟩ := List.mem_map.1 hm
    rw [← he, verdict_allowed ((allows_iff _ _ _).1 (h p hp)).1 ((allows_iff _ _ _).1 (h p hp)).2]
    rfl

/-- Two calls that every pledge forbids have the same fate. -/
theorem enter_denied {t : Thread} {l : List Past} (hl : HasPledged t l) {d d' : SeccompData} (h : ∀ p ∈ l, Denies p.ids p.ps d)
    (h' : ∀ p ∈ l, Denies p.ids p.ps d') : enter t d = enter t d' := by
  unfold enter
  rw [runFilters_pledged hl, runFilters_pledged hl]
  congr 2
  apply List.map_congr_left
  intro p hp
  have a := (denies_iff _ _ _).1 (h p hp)
  have b := (denies_iff _ _ _).1 (h' p hp)
  rw [verdict_denied a.1 a.2, verdict_denied b.1 b.2]

theorem enter_one {t : Thread} {l : List Past} (hl : HasPledged t l) (d : SeccompData) :
    enter t d = .executed ∨ ∃ p ∈ l, enter t d = outcome (verdict p.ids p.ps p.v.toU32 d) := by
  unfold enter
  rw [runFilters_pledged hl]
  rcases combine_mem 0x7fff0000#32 (l.map fun p => verdict p.ids p.ps p.v.toU32 d) with hm | hm
  · left; rw [hm]; decide
  · obtain ⟨p, hp, he⟩ := List.mem_map.1 hm
    exact .inr ⟨p, hp, by rw [← he]⟩

theorem outcome_deadly {v : SeccompReturn} (h : Deadly v) :
    outcome v.toU32 = .killProcess ∨ outcome v.toU32 = .killThread ∨ outcome v.toU32 = .trap := by
  rcases h with rfl | rfl | rfl <;> decide

/-- If all violations kill, a call is executed exactly if all pledges allow it, and otherwise kills. -/
theorem enter_deadly {t : Thread} {l : List Past} (hl : HasPledged t l) (hv : ∀ p ∈ l, Deadly p.v) (d : SeccompData) :
    (enter t d = .executed ↔ ∀ p ∈ l, Allows p.ids p.ps d) ∧
    (enter t d = .executed ∨ enter t d = .killProcess ∨ enter t d = .killThread ∨ enter t d = .trap) := by
  constructor
  · refine ⟨fun h p hp => ?_, enter_allowed hl⟩
    obtain ⟨r, h1, h2⟩ := (C51_intersection t l hl (fun p hp => deadly_fits (hv p hp)) d).1 h p hp
    rw [past_verdict] at h1
    injection h1 with h1
    subst h1
    rcases verdict_three p.ids p.ps p.v.toU32 d with ⟨ha, _⟩ | ⟨_, e⟩ | ⟨_, e⟩
    · exact ha
    · rw [e] at h2
      rcases outcome_deadly (hv p hp) with h | h | h <;> rw [h] at h2 <;> cases h2
    · rw [e] at h2; exact absurd h2 (by decide)
  · rcases enter_one hl d with h | ⟨p, hp, h⟩
    · exact .inl h
    · rw [h]
      rcases verdict_three p.ids p.ps p.v.toU32 d with ⟨_, e⟩ | ⟨_, e⟩ | ⟨_, e⟩ <;> rw [e]
      · left; decide
      · exact .inr (outcome_deadly (hv p hp))
      · right; left; decide

theorem follow_executed {t : Thread} {ds : List (SeccompData × Care)} (h : ∀ x ∈ ds, enter t x.1 = .executed) : follow t ds = .done := by
  induction ds with
  | nil => rfl
  | cons x xs ih =>
    obtain ⟨d, c⟩ := x
    unfold follow
    rw [h (d, c) (by simp)]
    exact ih fun y hy => h y (by simp [hy])

theorem follow_deadly {t : Thread} {l : List Past} (hl : HasPledged t l) (hv : ∀ p ∈ l, Deadly p.v) {ds : List (SeccompData × Care)} :
    (follow t ds = .done ↔ ∀ x ∈ ds, ∀ p ∈ l, Allows p.ids p.ps x.1) ∧ (∀ n, follow t ds ≠ .gaveUp n) ∧ follow t ds ≠ .aborted := by
  induction ds with
  | nil => simp [follow]
  | cons x xs ih =>
    obtain ⟨d, c⟩ := x
    obtain ⟨h1, h2⟩ := enter_deadly hl hv d
    unfold follow
    rcases h2 with h | h | h | h
    · rw [h]
      refine ⟨?_, ih.2⟩
      rw [List.forall_mem_cons]
      exact ⟨fun hh => ⟨h1.1 h, ih.1.1 hh⟩, fun hh => ih.1.2 hh.2⟩
    all_goals
      rw [h]
      refine ⟨⟨by simp, fun hh => ?_⟩, by simp, by simp⟩
      rw [h1.2 (hh _ (List.mem_cons_self ..))] at h
      cases h

/-! ## Instances used beside the theorems -/

/-- One pledge, and the thread that has made it. -/
def past1 (ps : List Promise) (v : SeccompReturn) : List Past := [⟨⟨100, 100⟩, ps, v⟩]

def pledged1 (ps : List Promise) (v : SeccompReturn) : Thread :=
  { thread0 with nnp := true, filters := [progOf ⟨100, 100⟩ ps v.toU32] }

theorem has1 (ps : List Promise) (v : SeccompReturn) : HasPledged (pledged1 ps v) (past1 ps v) := (hasPledged_iff _ _).2 rfl

/-- The calls of `pthread_create` with some pointers. -/
def calls1 : ThreadCalls where
  mmap := mkCall 9 [0, 0x801000, 0, 0x20022, 0xffffffff, 0]
  mprotect := mkCall 10 [0x7f0000001000, 0x800000, 3]
  mask := mkCall 14 [0, 0x7ffe00001000, 0x7ffe00001080, 8]
  clone3 := mkCall 435 [0x7ffe00002000, 88]
  clone := mkCall 56 [0x3d0f00, 0x7f0000800000, 0x7f0000800910, 0x7f0000800910, 0x7f0000800640]
  robust := mkCall 273 [0x7f0000800920, 24]
  rseq := mkCall 334 [0x7f0000800fe0, 32, 0, 0x53053053]
  unmask := mkCall 14 [2, 0x7ffe00001000, 0, 8]

theorem proper1 : ThreadCalls.Proper calls1 := by
  constructor <;> simp only [IsCall] <;> decide

/-- The calls of the start of a program, with zeros for what is not in the list. -/
def call1 (r : Request) : SeccompData × Care :=
  (mkCall r.nr ((List.range 6).map fun i => (((r.args.find? fun a => a.1.val = i).map fun a => a.2.toNat).getD 0)), r.care)

def start1 (lib : Lib) (dynamic : Bool) : List (SeccompData × Care) := (programStart lib dynamic).map call1

theorem made_map {rs : List Request} (h : ∀ r ∈ rs, ((call1 r).1.arch = X86_64 ∧ (call1 r).1.nr.toNat = r.nr) ∧
    ∀ a ∈ r.args, arg (call1 r).1 a.1 = a.2) : Made rs (rs.map call1) := by
  induction rs with
  | nil => trivial
  | cons r rs ih =>
    have h1 := h r (by simp)
    exact ⟨⟨h1.1, h1.2, rfl⟩, ih fun q hq => h q (by simp [hq])⟩

theorem made1 (lib : Lib) (dynamic : Bool) : Made (programStart lib dynamic) (start1 lib dynamic) := by
  apply made_map
  rcases lib with ⟨⟨⟩, ⟨⟩⟩ <;> cases dynamic <;> decide

/-! ## C117 -/

section
variable (t : Thread) (l : List Past) (hl : HasPledged t l) (lib : Lib) (c : ThreadCalls) (hc : ThreadCalls.Proper c)
include hl hc

omit hl in
theorem needs_stdio (ids : Ids) (ps : List Promise) (hs : .StdIO ∈ ps) :
    Allows ids ps c.mmap ∧ Allows ids ps c.mprotect ∧ Allows ids ps c.mask ∧ Allows ids ps c.clone ∧ Allows ids ps c.robust ∧
    Allows ids ps c.unmask := by
  have h14 : freeOf 14 = [.StdIO] := by decide +kernel
  have h273 : freeOf 273 = [.StdIO] := by decide +kernel
  refine ⟨?_, ?_, ?_, ?_, ?_, ?_⟩
  · obtain ⟨h, a, b⟩ := hc.mmap
    rw [C72_mmap _ _ _ h, a, b]
    exact .inl ⟨hs, by decide, by simp only [hasNone]; decide⟩
  · obtain ⟨h, a⟩ := hc.mprotect
    rw [C72_mprotect _ _ _ h, a]
    exact .inr ⟨hs, by decide⟩
  · exact (allows_plain hc.mask _ h14 (by decide) (by decide)).2 ⟨_, hs, by simp⟩
  · obtain ⟨h, a⟩ := hc.clone
    rw [C72_clone _ _ _ h, a]
    exact ⟨by simp only [hasNone]; decide, .inr ⟨hs, by simp only [hasAll]; decide⟩⟩
  · exact (allows_plain hc.robust _ h273 (by decide) (by decide)).2 ⟨_, hs, by simp⟩
  · exact (allows_plain hc.unmask _ h14 (by decide) (by decide)).2 ⟨_, hs, by simp⟩

omit hl in
theorem never_had (ids : Ids) (ps : List Promise) : Denies ids ps c.clone3 ∧ Denies ids ps c.rseq :=
  ⟨C70_always_denied 435 (by decide) ids ps _ hc.clone3, C70_always_denied 334 (by decide) ids ps _ hc.rseq⟩

/-- C117: what becomes of starting a thread after pledges that all have StdIO. It depends on the C library and on the fate of the calls that
no promise includes, of which clone3 is one. -/
theorem C117_stdio (hs : ∀ p ∈ l, .StdIO ∈ p.ps) : newThread lib t c = threadTable lib (enter t c.clone3) := by
  have hx := fun p hp => needs_stdio c hc p.ids p.ps (hs p hp)
  have e1 := enter_allowed hl fun p hp => (hx p hp).1
  have e2 := enter_allowed hl fun p hp => (hx p hp).2.1
  have e3 := enter_allowed hl fun p hp => (hx p hp).2.2.1
  have e4 := enter_allowed hl fun p hp => (hx p hp).2.2.2.1
  have e5 := enter_allowed hl fun p hp => (hx p hp).2.2.2.2.1
  have e6 := enter_allowed hl fun p hp => (hx p hp).2.2.2.2.2
  have e7 : enter t c.rseq = enter t c.clone3 :=
    enter_denied hl (fun p _ => (never_had c hc p.ids p.ps).2) fun p _ => (never_had c hc p.ids p.ps).1
  unfold newThread
  rw [follow_executed (by simp [e1, e2, e3])]
  simp only [e4]
  rcases lib with ⟨⟨⟩, ⟨⟩⟩
  · simp [threadTable, Begun.of, Begun.after, follow, e5, e6]
  · simp only [threadTable, Begun.of, Begun.after]
    cases h : enter t c.clone3 with
    | errno n =>
      cases n <;> simp [follow, e5, e6, e7, h]
    | _ => simp [follow, e5, e6, e7, h]
  · simp only [threadTable, Begun.of, Begun.after]
    cases h : enter t c.clone3 with
    | errno n =>
      by_cases h38 : n = 38
      · subst h38; simp [follow, e5, e6]
      · cases n <;> simp_all
    | _ => simp [follow, e5, e6]
  · simp only [threadTable, Begun.of, Begun.after]
    cases h : enter t c.clone3 with
    | errno n =>
      by_cases h38 : n = 38
      · subst h38; simp [follow, e5, e7, h]
      · cases n <;> simp_all
    | _ => simp [follow, e5, e6, e7, h]

omit hl hc in
/-- Not vacuous: after StdIO with the error ENOSYS, a library with clone3 and without rseq gets its thread. -/
example : newThread ⟨true, false⟩ (pledged1 [.StdIO] (.Errno 38)) calls1 =
    threadTable ⟨true, false⟩ (enter (pledged1 [.StdIO] (.Errno 38)) calls1.clone3) :=
  C117_stdio _ _ (has1 _ _) _ _ proper1 (by simp [past1])


/-- C117: the fate of the calls that no promise includes. After one pledge it is that of its violation; if the violation of one of the
pledges is to kill the process, it is that. -/
theorem C117_fate : (∀ p, l = [p] → enter t c.clone3 = outcome p.v.toU32) ∧
    ((∃ p ∈ l, p.v = .KillProcess) → enter t c.clone3 = .killProcess) := by
  constructor
  · rintro p rfl
    have h := (denies_iff _ _ _).1 (never_had c hc p.ids p.ps).1
    unfold enter
    rw [runFilters_pledged hl]
    simp only [List.map_cons, List.map_nil, combine, List.foldl_cons, List.foldl_nil]
    rw [verdict_denied h.1 h.2]
    split
    · rfl
    · rename_i hlt
      have h1 : actionOnly p.v.toU32 = (0x7fff0000#32).toInt := by
        have := action_le_max p.v.toU32
        have e : actionOnly 0x7fff0000#32 = (0x7fff0000#32).toInt := by decide
        omega
      rw [(outcome_executed p.v.toU32).2 (.inr h1)]
      decide
  · rintro ⟨p, hp, hv⟩
    have h := (denies_iff _ _ _).1 (never_had c hc p.ids p.ps).1
    unfold enter
    rw [runFilters_pledged hl]
    apply min_action
    have := (combine_le 0x7fff0000#32 (l.map fun p => verdict p.ids p.ps p.v.toU32 c.clone3)).2 _ (List.mem_map.2 ⟨p, hp, rfl⟩)
    rw [verdict_denied h.1 h.2, hv] at this
    exact this

omit hl hc in
/-- Not vacuous: one pledge. -/
example := (C117_fate _ _ (has1 [.StdIO] .KillProcess) _ proper1).2 ⟨_, List.mem_singleton.2 rfl, rfl⟩


/-- C117: with the default violation in one of the pledges, whatever is promised and whatever the other pledges are, a C library that uses
clone3 or rseq does not start a thread. -/
theorem C117_default (hk : ∃ p ∈ l, p.v = .KillProcess) (hb : lib.clone3 = true ∨ lib.rseq = true) :
    newThread lib t c ≠ .runs ∧
    ((∀ p ∈ l, .StdIO ∈ p.ps) →
      newThread lib t c = if lib.clone3 = true then .dies (some .killProcess) else .stillborn (some .killProcess)) := by
  have h3 := (C117_fate t l hl c hc).2 hk
  have hr : enter t c.rseq = .killProcess := by
    rw [← h3]
    exact enter_denied hl (fun p _ => (never_had c hc p.ids p.ps).2) fun p _ => (never_had c hc p.ids p.ps).1
  have hborn : ∀ o, Begun.of (Begun.after t [(c.robust, .ignores), (c.rseq, .aborts), (c.unmask, .ignores)]) o ≠ .runs := by
    intro o
    have : Begun.after t [(c.robust, .ignores), (c.rseq, .aborts), (c.unmask, .ignores)] ≠ .runs := by
      simp only [Begun.after, follow, hr]
      cases enter t c.robust with
      | errno n => cases n <;> simp
      | _ => simp
    cases o with
    | executed => exact this
    | errno n => cases n <;> simp [Begun.of]
    | _ => simp [Begun.of]
  constructor
  · unfold newThread
    split
    · simp
    · simp
    · simp
    · rw [h3]
      rcases lib with ⟨⟨⟩, ⟨⟩⟩
      · simp at hb
      · simpa using hborn _
      · simp [Begun.of]
      · simp [Begun.of]
  · intro hs
    rw [C117_stdio t l hl lib c hc hs, h3]
    rcases lib with ⟨⟨⟩, ⟨⟩⟩
    · simp at hb
    · rfl
    · rfl
    · rfl

omit hl hc in
/-- Not vacuous: the default violation and current glibc. -/
example := C117_default _ _ (has1 [.StdIO, .Proc, .Exec] .KillProcess) ⟨true, true⟩ _ proper1 ⟨_, List.mem_singleton.2 rfl, rfl⟩ (.inl rfl)


/-- C117: if all violations kill, a thread can be started exactly if all pledges have StdIO and, once there is a pledge, the C library uses
neither clone3 nor rseq. -/
theorem C117_deadly (hv : ∀ p ∈ l, Deadly p.v) :
    newThread lib t c = .runs ↔ (∀ p ∈ l, .StdIO ∈ p.ps) ∧ (l = [] ∨ lib.clone3 = false ∧ lib.rseq = false) := by
  have h14 : freeOf 14 = [.StdIO] := by decide +kernel
  constructor
  · intro h
    have hs : ∀ p ∈ l, .StdIO ∈ p.ps := by
      intro p hp
      have hd : follow t [(c.mmap, .givesUp), (c.mprotect, .givesUp), (c.mask, .ignores)] = .done := by
        unfold newThread at h
        split at h
        · cases h
        · cases h
        · cases h
        · assumption
      have := ((follow_deadly hl hv).1.1 hd) (c.mask, .ignores) (by simp) p hp
      obtain ⟨q, h1, h2⟩ := (allows_plain hc.mask _ h14 (by decide) (by decide)).1 this
      rw [List.mem_singleton.1 h2] at h1
      exact h1
    refine ⟨hs, ?_⟩
    cases l with
    | nil => exact .inl rfl
    | cons q l =>
      right
      rw [C117_stdio t _ hl lib c hc hs] at h
      have h2 := enter_deadly hl hv c.clone3
      have hne : enter t c.clone3 ≠ .executed := fun he =>
        not_both (h2.1.1 he q (by simp)) (never_had c hc q.ids q.ps).1
      rcases lib with ⟨⟨⟩, ⟨⟩⟩
      · exact ⟨rfl, rfl⟩
      all_goals
        rcases h2.2 with h2 | h2 | h2 | h2
        · exact absurd h2 hne
        all_goals
          rw [h2] at h
          simp [threadTable] at h
  · rintro ⟨hs, hb⟩
    rw [C117_stdio t l hl lib c hc hs]
    rcases hb with rfl | ⟨h1, h2⟩
    · rw [enter_allowed hl (d := c.clone3) (by simp)]
      rcases lib with ⟨⟨⟩, ⟨⟩⟩ <;> rfl
    · simp [threadTable, h1, h2]

omit hl hc in
/-- Not vacuous, and both sides are met: a library without clone3 and rseq starts a thread after StdIO, and does not after RPath. -/
example : newThread ⟨false, false⟩ (pledged1 [.StdIO] .KillProcess) calls1 = .runs ∧
    newThread ⟨false, false⟩ (pledged1 [.RPath] .KillProcess) calls1 ≠ .runs :=
  ⟨(C117_deadly _ _ (has1 [.StdIO] .KillProcess) _ _ proper1 (by simp [past1, Deadly])).2 (by simp [past1]),
    fun h => absurd ((C117_deadly _ _ (has1 [.RPath] .KillProcess) _ _ proper1 (by simp [past1, Deadly])).1 h) (by simp [past1])⟩


end

/-! ## C118 -/

theorem fork_allows (ids : Ids) (ps : List Promise) (d : SeccompData) (h : ForkCall d) : Allows ids ps d ↔ .Proc ∈ ps := by
  have h57 : freeOf 57 = [.Proc] ∧ freeOf 58 = [.Proc] := by decide +kernel
  rcases h with h | h | ⟨h, ha⟩
  · rw [allows_plain h _ h57.1 (by decide) (by decide)]; simp
  · rw [allows_plain h _ h57.2 (by decide) (by decide)]; simp
  · rw [C72_clone _ _ _ h, ha]
    constructor
    · rintro ⟨_, h | ⟨_, h⟩⟩
      · exact h
      · exact absurd (h 8 (by decide)) (by decide)
    · exact fun h => ⟨by simp only [hasNone]; decide, .inl h⟩

section
variable (t : Thread) (l : List Past) (hl : HasPledged t l)
include hl

/-- C118: if all violations kill, `fork` makes a process that runs exactly if all pledges have Proc and StdIO. -/
theorem C118_fork (hv : ∀ p ∈ l, Deadly p.v) (d robust : SeccompData) (hd : ForkCall d) (hr : IsCall robust 273) :
    newProcess t d robust = .runs ↔ ∀ p ∈ l, .Proc ∈ p.ps ∧ .StdIO ∈ p.ps := by
  have h273 : freeOf 273 = [.StdIO] := by decide +kernel
  have h1 := enter_deadly hl hv d
  have h2 := follow_deadly hl hv (ds := [(robust, .ignores)])
  have e1 : enter t d = .executed ↔ ∀ p ∈ l, .Proc ∈ p.ps := by
    rw [h1.1]; exact forall_congr' fun p => forall_congr' fun _ => fork_allows _ _ _ hd
  have e2 : follow t [(robust, .ignores)] = .done ↔ ∀ p ∈ l, .StdIO ∈ p.ps := by
    rw [h2.1]
    simp only [List.mem_singleton, forall_eq]
    refine forall_congr' fun p => forall_congr' fun _ => ?_
    rw [allows_plain hr _ h273 (by decide) (by decide)]; simp
  have e3 : newProcess t d robust = .runs ↔ enter t d = .executed ∧ follow t [(robust, .ignores)] = .done := by
    unfold newProcess
    rcases h1.2 with h | h | h | h <;> rw [h] <;> simp only [Begun.of]
    · simp only [true_and, Begun.after]
      cases h5 : follow t [(robust, .ignores)] with
      | done => simp
      | gaveUp n => exact absurd h5 (h2.2.1 n)
      | aborted => exact absurd h5 h2.2.2
      | died o => simp
    all_goals simp
  rw [e3, e1, e2]
  exact ⟨fun h p hp => ⟨h.1 p hp, h.2 p hp⟩, fun h => ⟨fun p hp => (h p hp).1, fun p hp => (h p hp).2⟩⟩

omit hl in
/-- Not vacuous: `fork` of the C library after StdIO and Proc, and after StdIO. -/
example : newProcess (pledged1 [.StdIO, .Proc] .KillProcess) (mkCall 56 [0x1200011]) (mkCall 273 [64, 24]) = .runs ∧
    newProcess (pledged1 [.StdIO] .KillProcess) (mkCall 56 [0x1200011]) (mkCall 273 [64, 24]) ≠ .runs :=
  ⟨(C118_fork _ _ (has1 [.StdIO, .Proc] .KillProcess) (by simp [past1, Deadly]) _ _ (.inr (.inr ⟨⟨rfl, rfl⟩, rfl⟩)) ⟨rfl, rfl⟩).2
      (by simp [past1]),
    fun h => absurd ((C118_fork _ _ (has1 [.StdIO] .KillProcess) (by simp [past1, Deadly]) _ _ (.inr (.inr ⟨⟨rfl, rfl⟩, rfl⟩))
      ⟨rfl, rfl⟩).1 h) (by simp [past1])⟩


/-- C118: if a process may not be made and the violation is `Errno(0)`, the caller of `fork` goes on as if it were the new process. -/
theorem C118_impostor (hv : ∀ p ∈ l, .Proc ∈ p.ps ∨ p.v = .Errno 0) (hn : ∃ p ∈ l, .Proc ∉ p.ps) (d robust : SeccompData)
    (hd : ForkCall d) : newProcess t d robust = .impostor := by
  have key : enter t d = .errno 0 := by
    obtain ⟨p0, hp0, hn⟩ := hn
    have ha : d.arch = X86_64 := hd.elim (·.1) fun h => h.elim (·.1) (·.1.1)
    have hverd : ∀ p ∈ l, verdict p.ids p.ps p.v.toU32 d = if .Proc ∈ p.ps then 0x7fff0000#32 else 0x50000#32 := by
      intro p hp
      by_cases h : .Proc ∈ p.ps
      · rw [if_pos h]
        exact verdict_allowed ha ((allows_iff _ _ _).1 ((fork_allows _ _ _ hd).2 h)).2
      · rw [if_neg h, verdict_denied ha fun hh => h ((fork_allows _ _ _ hd).1 ((allows_iff _ _ _).2 ⟨ha, hh⟩))]
        rcases hv p hp with h' | h'
        · exact absurd h' h
        · rw [h']; rfl
    unfold enter
    rw [runFilters_pledged hl]
    have hle := (combine_le 0x7fff0000#32 (l.map fun p => verdict p.ids p.ps p.v.toU32 d)).2 _ (List.mem_map.2 ⟨p0, hp0, rfl⟩)
    rw [hverd p0 hp0, if_neg hn] at hle
    rcases combine_mem 0x7fff0000#32 (l.map fun p => verdict p.ids p.ps p.v.toU32 d) with hm | hm
    · rw [hm] at hle; exact absurd hle (by decide)
    · obtain ⟨p, hp, he⟩ := List.mem_map.1 hm
      rw [← he, hverd p hp] at hle ⊢
      by_cases h : .Proc ∈ p.ps
      · rw [if_pos h] at hle; exact absurd hle (by decide)
      · rw [if_neg h]; decide
  unfold newProcess
  rw [key]
  rfl

omit hl in
/-- Not vacuous: StdIO with `Errno(0)`. -/
example : newProcess (pledged1 [.StdIO] (.Errno 0)) (mkCall 57 []) (mkCall 273 [64, 24]) = .impostor :=
  C118_impostor _ _ (has1 _ _) (by simp [past1]) (by simp [past1]) _ _ (.inl ⟨rfl, rfl⟩)


omit hl in
theorem made_all {rs : List Request} {ds : List (SeccompData × Care)} (h : Made rs ds) {ids : Ids} {ps : List Promise} {C : Request → Prop}
    (hC : ∀ r ∈ rs, ∀ d, IsCall d r.nr → (∀ a ∈ r.args, arg d a.1 = a.2) → (Allows ids ps d ↔ C r)) :
    (∀ x ∈ ds, Allows ids ps x.1) ↔ ∀ r ∈ rs, C r := by
  induction rs generalizing ds with
  | nil =>
    cases ds with
    | nil => simp
    | cons x xs => exact h.elim
  | cons r rs ih =>
    cases ds with
    | nil => exact h.elim
    | cons x xs =>
      obtain ⟨d, care⟩ := x
      obtain ⟨⟨h1, h2, _⟩, h3⟩ := h
      rw [List.forall_mem_cons, List.forall_mem_cons, ih h3 fun r hr => hC r (by simp [hr]), hC r (by simp) d h1 h2]

/-- The promises of which one is needed for a call of a program's start. -/
def wants (r : Request) : List Promise :=
  match r.nr with
  | 334 => []
  | 302 => [.Proc, .Id, .StdIO]
  | 10 => [.ProtExec, .StdIO]
  | 21 => [.RPath, .WPath]
  | 257 => [.RPath, .Dns, .CPath]
  | 262 => [.RPath, .WPath, .Dns]
  | 0 => [.StdIO, .Dns]
  | 3 => [.StdIO, .Dns]
  | 9 => if r.args = [(2, 1), (3, 0x802)] then [.StdIO, .ProtExec] else [.ProtExec]
  | _ => [.StdIO]

omit hl in
theorem wants_plain : ∀ n ∈ [12, 158, 218, 273, 334, 21, 262, 0, 3],
    freeOf n = wants ⟨n, [], .ignores⟩ ∧ n ∉ argNumbers ∧ n ≠ 60 := by
  decide +kernel

omit hl in
theorem wants_exact (lib : Lib) (dynamic : Bool) (ids : Ids) (ps : List Promise) (r : Request) (hr : r ∈ programStart lib dynamic)
    (d : SeccompData) (h : IsCall d r.nr) (ha : ∀ a ∈ r.args, arg d a.1 = a.2) : Allows ids ps d ↔ ∃ p ∈ ps, p ∈ wants r := by
  have hr : r ∈ loaderStart ++ ownStart ⟨true, true⟩ := by
    rcases lib with ⟨c, ⟨⟩⟩ <;> cases dynamic <;>
      simp only [programStart, ownStart, loaderStart, if_true, if_false, Bool.false_eq_true, List.mem_append, List.mem_cons,
        List.not_mem_nil, or_false, false_or] at hr ⊢ <;> grind
  have plain : ∀ (n : Nat) (care : Care), n ∈ [12, 158, 218, 273, 334, 21, 262, 0, 3] → r = ⟨n, [], care⟩ →
      (Allows ids ps d ↔ ∃ p ∈ ps, p ∈ wants r) := by
    rintro n care hn rfl
    obtain ⟨h1, h2, h3⟩ := wants_plain n hn
    exact allows_plain h _ h1 h2 h3
  simp only [loaderStart, ownStart, if_true, List.mem_append, List.mem_cons, List.not_mem_nil, or_false] at hr
  rcases hr with (hr | hr | hr | hr | hr | hr | hr | hr) | ((hr | hr | hr | hr) | hr) | hr | hr
  · exact plain _ _ (by decide) hr
  · subst hr
    have := ha (2, 0x80000) (by simp)
    simp only at this
    rw [C72_openat _ _ _ h, this]
    have e : hasNone 0x80000#32 [6, 22] ∧ hasNone 0x80000#32 [6, 9, 22] := by simp only [hasNone]; decide
    simp [wants, e.1, e.2]
    grind
  · exact plain _ _ (by decide) hr
  · exact plain _ _ (by decide) hr
  · subst hr
    have h1 := ha (2, 1) (by simp)
    have h2 := ha (3, 0x802) (by simp)
    simp only at h1 h2
    rw [C72_mmap _ _ _ h, h1, h2]
    have e : hasNone 0x802#32 [13, 15, 16, 18] ∧ hasNone 0x802#32 [13, 16, 18] := by simp only [hasNone]; decide
    simp [wants, e.1, e.2]
    grind
  · subst hr
    have h1 := ha (2, 5) (by simp)
    have h2 := ha (3, 0x812) (by simp)
    simp only at h1 h2
    rw [C72_mmap _ _ _ h, h1, h2]
    have e : hasNone 0x812#32 [13, 15, 16, 18] ∧ hasNone 0x812#32 [13, 16, 18] := by simp only [hasNone]; decide
    simp [wants, e.2]
  · subst hr
    have h1 := ha (2, 3) (by simp)
    have h2 := ha (3, 0x812) (by simp)
    simp only at h1 h2
    rw [C72_mmap _ _ _ h, h1, h2]
    have e : hasNone 0x812#32 [13, 15, 16, 18] ∧ hasNone 0x812#32 [13, 16, 18] := by simp only [hasNone]; decide
    simp [wants, e.2]
  · exact plain _ _ (by decide) hr
  · exact plain _ _ (by decide) hr
  · exact plain _ _ (by decide) hr
  · exact plain _ _ (by decide) hr
  · exact plain _ _ (by decide) hr
  · exact plain _ _ (by decide) hr
  · subst hr
    have h1 := ha (2, 0) (by simp)
    simp only at h1
    have h2 : (d.args 2).toNat % 2 ^ 32 = 0 := by
      have := congrArg BitVec.toNat h1
      simpa [arg, BitVec.toNat_setWidth] using this
    rw [C72_prlimit _ _ _ h]
    simp [wants, h2]
    grind
  · subst hr
    have h1 := ha (2, 1) (by simp)
    simp only at h1
    rw [C72_mprotect _ _ _ h, h1]
    simp [wants]
    grind

omit hl in
theorem exec_allows (ids : Ids) (ps : List Promise) (d : SeccompData) (h : ExecCall d) : Allows ids ps d ↔ .Exec ∈ ps := by
  have h59 : freeOf 59 = [.Exec] ∧ freeOf 322 = [.Exec] := by decide +kernel
  rcases h with h | h
  · rw [allows_plain h _ h59.1 (by decide) (by decide)]; simp
  · rw [allows_plain h _ h59.2 (by decide) (by decide)]; simp

omit hl in
/-- The promises under which a program gets to its own code when no call that is forbidden is made. -/
theorem start_allowed (lib : Lib) (dynamic : Bool) (ids : Ids) (ps : List Promise) (start : List (SeccompData × Care))
    (hs : Made (programStart lib dynamic) start) :
    (∀ x ∈ start, Allows ids ps x.1) ↔ lib.rseq = false ∧ .StdIO ∈ ps ∧
      (dynamic = true → .ProtExec ∈ ps ∧ (.RPath ∈ ps ∨ .WPath ∈ ps ∧ (.Dns ∈ ps ∨ .CPath ∈ ps))) := by
  rw [made_all hs (wants_exact lib dynamic ids ps)]
  rcases lib with ⟨c, ⟨⟩⟩ <;> cases dynamic <;> simp [programStart, ownStart, loaderStart, wants, and_or_left, exists_or] <;>
    generalize (Promise.StdIO ∈ ps) = a1, (Promise.ProtExec ∈ ps) = a2, (Promise.RPath ∈ ps) = a3, (Promise.WPath ∈ ps) = a4,
      (Promise.Dns ∈ ps) = a5, (Promise.CPath ∈ ps) = a6 <;> grind

/-- C118: if all violations kill, a program that a pledged thread executes gets to its own code exactly if every pledge has Exec and StdIO, and
ProtExec and the reading of files if the program is linked dynamically, and, once there is a pledge, its C library does not use rseq. -/
theorem C118_program (hv : ∀ p ∈ l, Deadly p.v) (lib : Lib) (dynamic : Bool) (d : SeccompData) (hd : ExecCall d)
    (start : List (SeccompData × Care)) (hs : Made (programStart lib dynamic) start) :
    newProgram t d start = .done ↔ (l = [] ∨ lib.rseq = false) ∧ ∀ p ∈ l, .Exec ∈ p.ps ∧ .StdIO ∈ p.ps ∧
      (dynamic = true → .ProtExec ∈ p.ps ∧ (.RPath ∈ p.ps ∨ .WPath ∈ p.ps ∧ (.Dns ∈ p.ps ∨ .CPath ∈ p.ps))) := by
  have h1 := enter_deadly hl hv d
  have e1 : enter t d = .executed ↔ ∀ p ∈ l, .Exec ∈ p.ps := by
    rw [h1.1]; exact forall_congr' fun p => forall_congr' fun _ => exec_allows _ _ _ hd
  have e2 : newProgram t d start = .done ↔ enter t d = .executed ∧ follow t start = .done := by
    unfold newProgram
    rcases h1.2 with h | h | h | h <;> rw [h] <;> simp
  have e3 : (∀ x ∈ start, ∀ p ∈ l, Allows p.ids p.ps x.1) ↔ ∀ p ∈ l, ∀ x ∈ start, Allows p.ids p.ps x.1 :=
    ⟨fun h p hp x hx => h x hx p hp, fun h x hx p hp => h p hp x hx⟩
  rw [e2, e1, (follow_deadly hl hv).1, e3]
  constructor
  · rintro ⟨a, b⟩
    refine ⟨?_, fun p hp => ⟨a p hp, ((start_allowed lib dynamic _ _ start hs).1 (b p hp)).2⟩⟩
    cases l with
    | nil => exact .inl rfl
    | cons p l => exact .inr ((start_allowed lib dynamic _ _ start hs).1 (b p (by simp))).1
  · rintro ⟨hb, h⟩
    refine ⟨fun p hp => (h p hp).1, fun p hp => ?_⟩
    rcases hb with rfl | hb
    · cases hp
    · exact (start_allowed lib dynamic _ _ start hs).2 ⟨hb, (h p hp).2⟩

omit hl in
/-- Not vacuous, and both sides are met: StdIO and Exec are enough for a static program without rseq, and not for a dynamic one. -/
example : newProgram (pledged1 [.StdIO, .Exec] .KillProcess) (mkCall 59 [64, 128, 192]) (start1 ⟨false, false⟩ false) = .done ∧
    newProgram (pledged1 [.StdIO, .Exec] .KillProcess) (mkCall 59 [64, 128, 192]) (start1 ⟨false, false⟩ true) ≠ .done :=
  ⟨(C118_program _ _ (has1 [.StdIO, .Exec] .KillProcess) (by simp [past1, Deadly]) ⟨false, false⟩ false _ (.inl ⟨rfl, rfl⟩) _
      (made1 _ _)).2 (by simp [past1]),
    fun h => absurd ((C118_program _ _ (has1 [.StdIO, .Exec] .KillProcess) (by simp [past1, Deadly]) ⟨false, false⟩ true _
      (.inl ⟨rfl, rfl⟩) _ (made1 _ _)).1 h) (by simp [past1])⟩


omit hl in
theorem follow_mixed (o : Outcome) (ds : List (SeccompData × Care))
    (h : ∀ x ∈ ds, enter t x.1 = .executed ∨ x.2 = .ignores ∧ enter t x.1 = o) :
    ((o = .executed ∨ ∃ n, o = .errno n) → follow t ds = .done) ∧
    ((∃ x ∈ ds, enter t x.1 = o) → o = .killProcess ∨ o = .killThread ∨ o = .trap → follow t ds = .died o) := by
  induction ds with
  | nil => simp [follow]
  | cons x xs ih =>
    obtain ⟨d, care⟩ := x
    have ih := ih fun y hy => h y (by simp [hy])
    rcases h _ (List.mem_cons_self ..) with h1 | ⟨h1, h2⟩
    · simp only at h1
      constructor
      · intro ho
        simp only [follow, h1]
        exact ih.1 ho
      · rintro ⟨y, hy, he⟩ ho
        rcases List.mem_cons.1 hy with rfl | hy
        · rw [h1] at he; subst he; simp at ho
        · simp only [follow, h1]
          exact ih.2 ⟨y, hy, he⟩ ho
    · simp only at h1 h2
      subst h1
      constructor
      · intro ho
        have := ih.1 ho
        simp only [follow, h2]
        rcases ho with rfl | ⟨n, rfl⟩
        · exact this
        · cases n <;> exact this
      · rintro _ ho
        simp only [follow, h2]
        rcases ho with rfl | rfl | rfl <;> rfl

theorem denied_deadly (hv : ∀ p ∈ l, PayloadFits p.v) (d : SeccompData) (hd : ∀ p ∈ l, Denies p.ids p.ps d) :
    ((∀ p ∈ l, ¬ Deadly p.v) → enter t d = .executed ∨ ∃ n, enter t d = .errno n) ∧
    ((∃ p ∈ l, Deadly p.v) → enter t d = .killProcess ∨ enter t d = .killThread ∨ enter t d = .trap) := by
  have hverd : ∀ p ∈ l, verdict p.ids p.ps p.v.toU32 d = p.v.toU32 := fun p hp =>
    verdict_denied ((denies_iff _ _ _).1 (hd p hp)).1 ((denies_iff _ _ _).1 (hd p hp)).2
  constructor
  · intro h
    rcases enter_one hl d with he | ⟨p, hp, he⟩
    · exact .inl he
    · rw [hverd p hp, outcome_of_fits _ (hv p hp)] at he
      rw [he]
      have hnd := h p hp
      generalize p.v = v at hnd
      cases v with
      | Errno e => exact .inr ⟨_, rfl⟩
      | Trace e => exact .inr ⟨_, rfl⟩
      | Log => exact .inl rfl
      | Allow => exact .inl rfl
      | KillProcess => exact absurd (.inl rfl) hnd
      | KillThread => exact absurd (.inr (.inl rfl)) hnd
      | Trap => exact absurd (.inr (.inr rfl)) hnd
  · rintro ⟨p, hp, hk⟩
    have hle := (combine_le 0x7fff0000#32 (l.map fun p => verdict p.ids p.ps p.v.toU32 d)).2 _ (List.mem_map.2 ⟨p, hp, rfl⟩)
    rw [hverd p hp] at hle
    have hp3 : actionOnly p.v.toU32 ≤ 0x30000 := by
      rcases hk with h | h | h <;> rw [h] <;> decide
    unfold enter
    rw [runFilters_pledged hl]
    rcases combine_mem 0x7fff0000#32 (l.map fun p => verdict p.ids p.ps p.v.toU32 d) with hm | hm
    · rw [hm] at hle
      exact absurd (Int.le_trans hle hp3) (by decide)
    · obtain ⟨q, hq, he⟩ := List.mem_map.1 hm
      rw [← he, hverd q hq] at hle ⊢
      have hq3 := Int.le_trans hle hp3
      rw [outcome_of_fits _ (hv q hq)]
      have hf := hv q hq
      generalize q.v = v at hq3 hf
      cases v with
      | Errno e =>
        unfold actionOnly at hq3
        rw [show (SeccompReturn.Errno e).toU32 = 0x00050000#32 ||| e from rfl, or_hi _ e hf] at hq3
        exact absurd hq3 (by decide)
      | Trace e =>
        unfold actionOnly at hq3
        rw [show (SeccompReturn.Trace e).toU32 = 0x7ff00000#32 ||| e from rfl, or_hi _ e hf] at hq3
        exact absurd hq3 (by decide)
      | Log => exact absurd hq3 (by decide)
      | Allow => exact absurd hq3 (by decide)
      | KillProcess => exact .inl rfl
      | KillThread => exact .inr (.inl rfl)
      | Trap => exact .inr (.inr rfl)

omit hl in
theorem made_each {rs : List Request} {ds : List (SeccompData × Care)} (h : Made rs ds) :
    (∀ x ∈ ds, ∃ r ∈ rs, IsCall x.1 r.nr ∧ (∀ a ∈ r.args, arg x.1 a.1 = a.2) ∧ x.2 = r.care) ∧
    ∀ r ∈ rs, ∃ x ∈ ds, IsCall x.1 r.nr := by
  induction rs generalizing ds with
  | nil =>
    cases ds with
    | nil => simp
    | cons x xs => exact h.elim
  | cons r rs ih =>
    cases ds with
    | nil => exact h.elim
    | cons x xs =>
      obtain ⟨d, care⟩ := x
      obtain ⟨h1, h3⟩ := h
      have ih := ih h3
      constructor
      · intro y hy
        rcases List.mem_cons.1 hy with rfl | hy
        · exact ⟨r, by simp, h1⟩
        · obtain ⟨q, hq, hh⟩ := ih.1 y hy
          exact ⟨q, by simp [hq], hh⟩
      · intro q hq
        rcases List.mem_cons.1 hq with rfl | hq
        · exact ⟨(d, care), by simp, h1.1⟩
        · obtain ⟨y, hy, hh⟩ := ih.2 q hq
          exact ⟨y, by simp [hy], hh⟩

omit hl in
theorem rseq_care (lib : Lib) (dynamic : Bool) : ∀ r ∈ programStart lib dynamic, r.nr = 334 → r.care = .ignores := by
  rcases lib with ⟨⟨⟩, ⟨⟩⟩ <;> cases dynamic <;> decide

omit hl in
theorem start_wants (lib : Lib) (dynamic : Bool) (ps : List Promise) (h : .StdIO ∈ ps ∧
      (dynamic = true → .ProtExec ∈ ps ∧ (.RPath ∈ ps ∨ .WPath ∈ ps ∧ (.Dns ∈ ps ∨ .CPath ∈ ps)))) :
    ∀ r ∈ programStart lib dynamic, r.nr ≠ 334 → ∃ p ∈ ps, p ∈ wants r := by
  revert h
  rcases lib with ⟨c, ⟨⟩⟩ <;> cases dynamic <;> simp [programStart, ownStart, loaderStart, wants, and_or_left, exists_or] <;>
    generalize (Promise.StdIO ∈ ps) = a1, (Promise.ProtExec ∈ ps) = a2, (Promise.RPath ∈ ps) = a3, (Promise.WPath ∈ ps) = a4,
      (Promise.Dns ∈ ps) = a5, (Promise.CPath ∈ ps) = a6 <;> grind

/-- C118: with the promises that a program's start needs in every pledge, it gets to its own code exactly if its C library does not use rseq
or no pledge has a violation that kills: the library does without rseq if it fails. -/
theorem C118_tolerant (hv : ∀ p ∈ l, PayloadFits p.v) (lib : Lib) (dynamic : Bool) (d : SeccompData) (hd : ExecCall d)
    (start : List (SeccompData × Care)) (hs : Made (programStart lib dynamic) start)
    (hp : ∀ p ∈ l, .Exec ∈ p.ps ∧ .StdIO ∈ p.ps ∧
      (dynamic = true → .ProtExec ∈ p.ps ∧ (.RPath ∈ p.ps ∨ .WPath ∈ p.ps ∧ (.Dns ∈ p.ps ∨ .CPath ∈ p.ps)))) :
    newProgram t d start = .done ↔ lib.rseq = false ∨ ∀ p ∈ l, ¬ Deadly p.v := by
  have e1 : enter t d = .executed := enter_allowed hl fun p h => (exec_allows _ _ _ hd).2 (hp p h).1
  have e2 : newProgram t d start = follow t start := by unfold newProgram; rw [e1]
  rw [e2]
  cases hb : lib.rseq with
  | false =>
    simp only [true_or, iff_true]
    apply follow_executed
    intro x hx
    exact enter_allowed hl fun p h => (start_allowed lib dynamic _ _ start hs).2 ⟨hb, (hp p h).2⟩ x hx
  | true =>
    obtain ⟨hm1, hm2⟩ := made_each hs
    obtain ⟨⟨d0, c0⟩, hx0, h0⟩ := hm2 ⟨334, [], .ignores⟩ (by simp [programStart, ownStart, hb])
    simp only at h0
    have hden : ∀ d, IsCall d 334 → ∀ p ∈ l, Denies p.ids p.ps d := fun d h p _ => C70_always_denied 334 (by decide) p.ids p.ps d h
    have hsame : ∀ d, IsCall d 334 → enter t d = enter t d0 := fun d h => enter_denied hl (hden d h) (hden d0 h0)
    have hall : ∀ x ∈ start, enter t x.1 = .executed ∨ x.2 = .ignores ∧ enter t x.1 = enter t d0 := by
      intro x hx
      obtain ⟨r, hr, hx1, hx2, hx3⟩ := hm1 x hx
      by_cases h334 : r.nr = 334
      · right
        refine ⟨?_, hsame _ (h334 ▸ hx1)⟩
        rw [hx3]
        exact rseq_care lib dynamic r hr h334
      · left
        refine enter_allowed hl fun p h => (wants_exact lib dynamic p.ids p.ps r hr x.1 hx1 hx2).2 ?_
        exact start_wants lib dynamic p.ps (hp p h).2 r hr h334
    have hfin := follow_mixed t (enter t d0) start hall
    have hdd := denied_deadly t l hl hv d0 (hden d0 h0)
    constructor
    · intro h
      right
      intro p hp hk
      rw [hfin.2 ⟨_, hx0, rfl⟩ (hdd.2 ⟨p, hp, hk⟩)] at h
      cases h
    · rintro (h | h)
      · cases h
      · exact hfin.1 (hdd.1 h)

omit hl in
/-- Not vacuous, and both sides are met: with current glibc a static program starts if forbidden calls fail with EPERM, and not if they
kill. -/
example : newProgram (pledged1 [.StdIO, .Exec] (.Errno 1)) (mkCall 59 [64, 128, 192]) (start1 ⟨true, true⟩ false) = .done ∧
    newProgram (pledged1 [.StdIO, .Exec] .KillProcess) (mkCall 59 [64, 128, 192]) (start1 ⟨true, true⟩ false) ≠ .done :=
  ⟨(C118_tolerant _ _ (has1 [.StdIO, .Exec] (.Errno 1)) (by simp [past1, PayloadFits]) ⟨true, true⟩ false _ (.inl ⟨rfl, rfl⟩) _
      (made1 _ _) (by simp [past1])).2 (by simp [past1, Deadly]),
    fun h => absurd ((C118_tolerant _ _ (has1 [.StdIO, .Exec] .KillProcess) (by simp [past1, PayloadFits]) ⟨true, true⟩ false _
      (.inl ⟨rfl, rfl⟩) _ (made1 _ _) (by simp [past1])).1 h) (by simp [past1, Deadly])⟩

end

end Props
