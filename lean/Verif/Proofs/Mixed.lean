import Verif.Proofs.Ids
import Verif.Spec.Signals

/-!
# Programs whose fragments were generated with different ids
-/
set_option autoImplicit false

namespace Pledge
open Bpfvm Kernel Spec

def mixBody (l : List (Ids × Filtered)) : List SockFilter := (l.map fun x => frag x.1 x.2).flatten

/-- Like `progOf`, with the ids of each fragment. -/
def mixProg (l : List (Ids × Filtered)) (v : BitVec 32) : List SockFilter := header ++ mixBody l ++ [⟨0x6, 0, 0, v⟩]

theorem mixBody_cons (x : Ids × Filtered) (l : List (Ids × Filtered)) : mixBody (x :: l) = frag x.1 x.2 ++ mixBody l := by
  simp [mixBody]

open Classical in
theorem ev_mixBody (d : SeccompData) (l : List (Ids × Filtered)) :
    ev d.words (mixBody l) 0 d.nr = if ∃ x ∈ l, Match x.1 d x.2 then .ret 0x7fff0000 else .fall d.nr := by
  induction l with
  | nil => simp [mixBody, ev]
  | cons x l ih =>
    have hf := ev_frag x.1 x.2 d
    rw [mixBody_cons]
    by_cases hm : Match x.1 d x.2
    · rw [ev_append _ _ _ _ _ (by rw [hf.1 hm]; simp), hf.1 hm]
      rw [if_pos ⟨x, by simp, hm⟩]
    · rw [ev_append _ _ _ _ _ (by rw [hf.2 hm]; simp), hf.2 hm]
      simp only [ih]
      by_cases he : ∃ y ∈ l, Match y.1 d y.2
      · rw [if_pos he, if_pos (by obtain ⟨g, h1, h2⟩ := he; exact ⟨g, by simp [h1], h2⟩)]
      · rw [if_neg he, if_neg (by
          rintro ⟨g, h1, h2⟩
          simp only [List.mem_cons] at h1
          rcases h1 with rfl | h1
          · exact hm h2
          · exact he ⟨g, h1, h2⟩)]

open Classical in
theorem ev_mixProg (d : SeccompData) (l : List (Ids × Filtered)) (v : BitVec 32) :
    ev d.words (mixProg l v) 0 0 =
      .ret (if d.arch ≠ 0xC000003E then 0x80000000
        else if ∃ x ∈ l, Match x.1 d x.2 then 0x7fff0000 else v) := by
  have hh : ∀ a, ev d.words header 0 a = if d.arch = 0xC000003E then .fall d.nr else .ret 0x80000000 := by
    intro a
    simp only [header, ev_ld4, ev_jeq, ev_ret, ev_skip, ev_ld0, ev_nil, BitVec.reduceToNat]
  unfold mixProg
  rw [List.append_assoc]
  by_cases ha : d.arch = 0xC000003E
  · rw [ev_append _ _ _ _ _ (by rw [hh]; simp [ha]), hh, if_pos ha]
    simp only [ha, ne_eq, not_true_eq_false, if_false]
    have hb := ev_mixBody d l
    by_cases he : ∃ x ∈ l, Match x.1 d x.2
    · rw [if_pos he] at hb
      rw [ev_append _ _ _ _ _ (by rw [hb]; simp), hb, if_pos he]
    · rw [if_neg he] at hb
      rw [ev_append _ _ _ _ _ (by rw [hb]; simp), hb, if_neg he]
      simp only [ev_ret]
  · rw [ev_append _ _ _ _ _ (by rw [hh, if_neg ha]; simp), hh, if_neg ha]
    simp only [ne_eq, ha, not_false_eq_true, if_true]

theorem plainAll_mixBody (l : List (Ids × Filtered)) : plainAll (mixBody l) = true := by
  induction l with
  | nil => rfl
  | cons x l ih => rw [mixBody_cons]; exact plainAll_append (plainAll_frag x.1 x.2) ih

theorem accepts_mixProg (l : List (Ids × Filtered)) (v : BitVec 32) :
    accepts (mixProg l v) = decide ((mixProg l v).length ≤ maxInsns) := by
  unfold mixProg
  rw [accepts_plain _ (plainAll_append plainAll_header (plainAll_mixBody l))]
  rw [List.length_append (bs := [_])]
  rfl

theorem prefix_mixBody (l : List (Ids × Filtered)) (pre : List SockFilter) (m : Nat) (h1 : 1 ≤ m)
    (h2 : m ≤ (mixBody l).length) : accepts (pre ++ (mixBody l).take m) = false := by
  induction l generalizing pre m with
  | nil => simp [mixBody] at h2; omega
  | cons x l ih =>
    rw [mixBody_cons] at h2 ⊢
    by_cases hm : m ≤ (frag x.1 x.2).length
    · rw [List.take_append_of_le_length hm]
      exact prefix_frag pre _ (shape_frag x.1 x.2) m h1 hm
    · rw [List.take_append, List.take_of_length_le (by omega), ← List.append_assoc]
      simp only [List.length_append] at h2
      exact ih _ _ (by omega) (by omega)

theorem accepts_mixPrefix (l : List (Ids × Filtered)) (v : BitVec 32) (n : Nat) (h : n < (mixProg l v).length) :
    accepts ((mixProg l v).take n) = false := by
  unfold mixProg at *
  rw [List.append_assoc]
  by_cases hn : n ≤ header.length
  · rw [List.take_append_of_le_length hn]
    have : ∀ k, k ≤ 4 → accepts (header.take k) = false := by decide
    exact this n hn
  · rw [List.take_append, List.take_of_length_le (by omega)]
    simp only [List.length_append, List.length_cons, List.length_nil] at h
    rw [List.take_append_of_le_length (by omega)]
    exact prefix_mixBody _ _ _ (by omega) (by omega)

/-- What the kernel does with the program as passed (its length cut to sixteen bits). -/
theorem setSeccomp_mix (fault : Option Fault) (l : List (Ids × Filtered)) (v : BitVec 32) (t : Thread) :
    (setSeccomp fault ((mixProg l v).take ((mixProg l v).length % 2 ^ 16)) t =
      ({ t with filters := mixProg l v :: t.filters }, 0) ∧ (t.nnp = true ∨ t.admin = true)) ∨
    ((setSeccomp fault ((mixProg l v).take ((mixProg l v).length % 2 ^ 16)) t).1 = t ∧
      ∃ e : Fault, (setSeccomp fault ((mixProg l v).take ((mixProg l v).length % 2 ^ 16)) t).2 = -((e.val : Int) + 1)) := by
  unfold setSeccomp
  cases fault with
  | some e => exact .inr ⟨rfl, e, rfl⟩
  | none =>
    simp only
    split
    · exact .inr ⟨rfl, ⟨21, by decide⟩, by simp only [EINVAL]; decide⟩
    · split
      · exact .inr ⟨rfl, ⟨12, by decide⟩, by simp only [EACCES]; decide⟩
      · rename_i hn
        split
        · exact .inr ⟨rfl, ⟨21, by decide⟩, by simp only [EINVAL]; decide⟩
        · rename_i ha
          left
          have hlt : ¬ (mixProg l v).length % 2 ^ 16 < (mixProg l v).length := fun h => ha (accepts_mixPrefix l v _ h)
          rw [List.take_of_length_le (by omega)]
          refine ⟨rfl, ?_⟩
          cases h1 : t.nnp <;> cases h2 : t.admin <;> simp_all

/-- The answers to the queries for the process id, as built into the program. -/
def pidsOf (l : List (Ids × Filtered)) : List (BitVec 32) :=
  (l.filter fun x => x.2 == .KillSelf).map fun x => x.1.pid

def tidsOf (l : List (Ids × Filtered)) : List (BitVec 32) :=
  (l.filter fun x => x.2 == .TkillSelf).map fun x => x.1.tid

theorem mem_pidsOf (l : List (Ids × Filtered)) (p : BitVec 32) : p ∈ pidsOf l ↔ ∃ ids, (ids, .KillSelf) ∈ l ∧ ids.pid = p := by
  simp only [pidsOf, List.mem_map, List.mem_filter, beq_iff_eq]
  constructor
  · rintro ⟨⟨ids, f⟩, ⟨h, rfl⟩, rfl⟩; exact ⟨ids, h, rfl⟩
  · rintro ⟨ids, h, rfl⟩; exact ⟨(ids, .KillSelf), ⟨h, rfl⟩, rfl⟩

theorem mem_tidsOf (l : List (Ids × Filtered)) (p : BitVec 32) : p ∈ tidsOf l ↔ ∃ ids, (ids, .TkillSelf) ∈ l ∧ ids.tid = p := by
  simp only [tidsOf, List.mem_map, List.mem_filter, beq_iff_eq]
  constructor
  · rintro ⟨⟨ids, f⟩, ⟨h, rfl⟩, rfl⟩; exact ⟨ids, h, rfl⟩
  · rintro ⟨ids, h, rfl⟩; exact ⟨(ids, .TkillSelf), ⟨h, rfl⟩, rfl⟩

theorem match_noid (ids ids' : Ids) (d : SeccompData) (f : Filtered) (h : f ≠ .KillSelf ∧ f ≠ .TkillSelf) :
    Match ids d f ↔ Match ids' d f := by
  cases f <;> first | exact Iff.rfl | exact absurd rfl h.1 | exact absurd rfl h.2

theorem asking_filter (ps : List Promise) (f : Filtered) (hf : f = .KillSelf ∨ f = .TkillSelf) :
    f ∈ allFilters ps ↔ .StdIO ∈ ps := by
  have h : ∀ p : Promise, f ∈ filtersOf p ↔ p = .StdIO := by
    intro p
    rcases hf with rfl | rfl <;> cases p <;> decide +kernel
  simp only [allFilters, List.mem_flatten, List.mem_map, List.mem_cons]
  constructor
  · rintro ⟨_, ⟨p, hp, rfl⟩, hm⟩
    rw [h p] at hm
    subst hm
    simpa using hp
  · intro hs
    exact ⟨_, ⟨.StdIO, .inr hs, rfl⟩, (h _).2 rfl⟩

theorem count_asking (ps : List Promise) (f : Filtered) (hf : f = .KillSelf ∨ f = .TkillSelf) :
    (allFilters ps).count f = ps.count .StdIO := by
  have h : ∀ p : Promise, (filtersOf p).count f = if p = .StdIO then 1 else 0 := by
    intro p
    rcases hf with rfl | rfl <;> cases p <;> decide +kernel
  have hl : ∀ l : List Promise, ((l.map filtersOf).flatten).count f = l.count .StdIO := by
    intro l
    induction l with
    | nil => rfl
    | cons p l ih =>
      rw [List.map_cons, List.flatten_cons, List.count_append, ih, h, List.count_cons]
      by_cases hp : p = .StdIO <;> simp [hp, Nat.add_comm]
  unfold allFilters
  rw [hl, List.count_cons]
  simp

theorem mem_snd {l : List (Ids × Filtered)} {f : Filtered} (h : f ∈ l.map Prod.snd) : ∃ ids, (ids, f) ∈ l := by
  obtain ⟨x, hx, rfl⟩ := List.mem_map.1 h
  exact ⟨x.1, hx⟩

theorem mix_match (l : List (Ids × Filtered)) (ps : List Promise) (v : SeccompReturn) (hl : l.map Prod.snd = allFilters ps)
    (d : SeccompData) : (∃ x ∈ l, Match x.1 d x.2) ↔ (Told.mk (pidsOf l) (tidsOf l) ps v).Allows d := by
  have hsome : ∃ pid tid, .StdIO ∈ ps → pid ∈ pidsOf l ∧ tid ∈ tidsOf l := by
    by_cases hs : .StdIO ∈ ps
    · obtain ⟨i1, h1⟩ := mem_snd (l := l) (f := .KillSelf) (by rw [hl]; exact (asking_filter _ _ (.inl rfl)).2 hs)
      obtain ⟨i2, h2⟩ := mem_snd (l := l) (f := .TkillSelf) (by rw [hl]; exact (asking_filter _ _ (.inr rfl)).2 hs)
      exact ⟨i1.pid, i2.tid, fun _ => ⟨(mem_pidsOf _ _).2 ⟨i1, h1, rfl⟩, (mem_tidsOf _ _).2 ⟨i2, h2, rfl⟩⟩⟩
    · exact ⟨0, 0, fun h => absurd h hs⟩
  obtain ⟨pid, tid, hpt⟩ := hsome
  constructor
  · rintro ⟨⟨ids, f⟩, hx, hm⟩
    have hf : f ∈ allFilters ps := by rw [← hl]; exact List.mem_map.2 ⟨_, hx, rfl⟩
    by_cases hk : f = .KillSelf
    · subst hk
      exact ⟨ids.pid, tid, fun hs => ⟨(mem_pidsOf _ _).2 ⟨ids, hx, rfl⟩, (hpt hs).2⟩,
        (allFilters_iff _ _ _).1 ⟨_, hf, hm⟩⟩
    · by_cases ht : f = .TkillSelf
      · subst ht
        exact ⟨pid, ids.tid, fun hs => ⟨(hpt hs).1, (mem_tidsOf _ _).2 ⟨ids, hx, rfl⟩⟩,
          (allFilters_iff _ _ _).1 ⟨_, hf, hm⟩⟩
      · exact ⟨pid, tid, hpt, (allFilters_iff _ _ _).1 ⟨_, hf, (match_noid _ _ _ _ ⟨hk, ht⟩).1 hm⟩⟩
  · rintro ⟨pid, tid, hpt, ha⟩
    obtain ⟨f, hf, hm⟩ := (allFilters_iff _ _ _).2 ha
    by_cases hk : f = .KillSelf
    · subst hk
      obtain ⟨ids, hx, he⟩ := (mem_pidsOf _ _).1 (hpt ((asking_filter _ _ (.inl rfl)).1 hf)).1
      refine ⟨_, hx, ?_⟩
      simp only [Match, he] at hm ⊢
      exact hm
    · by_cases ht : f = .TkillSelf
      · subst ht
        obtain ⟨ids, hx, he⟩ := (mem_tidsOf _ _).1 (hpt ((asking_filter _ _ (.inr rfl)).1 hf)).2
        refine ⟨_, hx, ?_⟩
        simp only [Match, he] at hm ⊢
        exact hm
      · obtain ⟨ids, hx⟩ := mem_snd (l := l) (f := f) (by rw [hl]; exact hf)
        exact ⟨_, hx, (match_noid _ _ _ _ ⟨hk, ht⟩).1 hm⟩

theorem mix_decides (l : List (Ids × Filtered)) (ps : List Promise) (v : SeccompReturn) (hl : l.map Prod.snd = allFilters ps) :
    Decides (mixProg l v.toU32) ⟨pidsOf l, tidsOf l, ps, v⟩ := by
  intro m0 d
  rw [run_of_ev m0 _ _ _ (ev_mixProg d l v.toU32)]
  unfold Told.verdict
  have h := mix_match l ps v hl d
  by_cases hb : ∃ x ∈ l, Match x.1 d x.2
  · rw [if_pos hb, if_pos (h.1 hb)]; rfl
  · rw [if_neg hb, if_neg (fun h' => hb (h.2 h'))]; rfl

theorem pidsOf_length (l : List (Ids × Filtered)) (ps : List Promise) (hl : l.map Prod.snd = allFilters ps) :
    (pidsOf l).length = ps.count .StdIO ∧ (tidsOf l).length = ps.count .StdIO := by
  have h : ∀ f, (l.filter fun x => x.2 == f).length = (l.map Prod.snd).count f := by
    intro f
    rw [List.count_eq_countP, List.countP_map, List.countP_eq_length_filter]
    rfl
  simp only [pidsOf, tidsOf, List.length_map, h, hl]
  exact ⟨count_asking _ _ (.inl rfl), count_asking _ _ (.inr rfl)⟩

/-! ## the verdict of a told pledge -/

/-- Every such filter treats the system calls of `pledge_override` alike. -/
theorem told_own (p : Told) (hne : .StdIO ∈ p.ps → p.pids ≠ [] ∧ p.tids ≠ []) (env : Env) (d : SeccompData)
    (hd : d = recGetpid env ∨ d = recGettid env ∨ d = recNnp env ∨ d = recSeccomp env) :
    p.verdict d = if .StdIO ∈ p.ps then 0x7fff0000#32 else p.v.toU32 := by
  have harch : d.arch = X86_64 := by rcases hd with rfl | rfl | rfl | rfl <;> rfl
  have key : ∀ ids, Allowed ids p.ps d ↔ .StdIO ∈ p.ps := by
    intro ids
    have h1 := verdict_own ids p.ps 0 env d hd
    constructor
    · intro ha
      rw [verdict_allowed harch ha] at h1
      by_cases hs : .StdIO ∈ p.ps
      · exact hs
      · rw [if_neg hs] at h1; exact absurd h1 (by decide)
    · intro hs
      rw [if_pos hs] at h1
      apply Classical.byContradiction
      intro ha
      rw [verdict_denied harch ha] at h1
      exact absurd h1 (by decide)
  have : p.Allows d ↔ .StdIO ∈ p.ps := by
    constructor
    · rintro ⟨_, _, _, ha⟩; exact (key _).1 ha
    · intro hs
      obtain ⟨h1, h2⟩ := hne hs
      obtain ⟨a, ha⟩ := List.exists_mem_of_ne_nil _ h1
      obtain ⟨c, hc⟩ := List.exists_mem_of_ne_nil _ h2
      exact ⟨a, c, fun _ => ⟨ha, hc⟩, (key _).2 hs⟩
  unfold Told.verdict
  rw [if_neg (by simp [harch])]
  by_cases hs : .StdIO ∈ p.ps
  · rw [if_pos hs, if_pos (this.2 hs)]; rfl
  · rw [if_neg hs, if_neg (fun h => hs (this.1 h))]

end Pledge
