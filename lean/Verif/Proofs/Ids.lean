import Verif.Model.Ids
import Verif.Proofs.Stack

/-!
# Every id query
-/
set_option autoImplicit false

namespace Spec
open Bpfvm Kernel Pledge

/-- The queries that generating `fs` makes if none stops it. -/
def queries (q : Nat → Query) : Nat → List Filtered → List SeccompData
  | _, [] => []
  | k, .KillSelf :: fs => (q k).getpid :: queries q (k + 1) fs
  | k, .TkillSelf :: fs => (q k).gettid :: queries q (k + 1) fs
  | k, _ :: fs => queries q (k + 1) fs

/-- The numbers of these calls. -/
def queryNrs : List Filtered → List Nat
  | [] => []
  | .KillSelf :: fs => 39 :: queryNrs fs
  | .TkillSelf :: fs => 186 :: queryNrs fs
  | _ :: fs => queryNrs fs

theorem queries_nr (q : Nat → Query) (k : Nat) (fs : List Filtered) : (queries q k fs).map (fun d => d.nr.toNat) = queryNrs fs := by
  induction fs generalizing k with
  | nil => rfl
  | cons f fs ih => cases f <;> simp [queries, queryNrs, ih, Query.getpid, Query.gettid]

theorem queryNrs_append (a c : List Filtered) : queryNrs (a ++ c) = queryNrs a ++ queryNrs c := by
  induction a with
  | nil => rfl
  | cons f a ih => cases f <;> simp [queryNrs, ih]

theorem queryNrs_promise (p : Promise) : queryNrs (filtersOf p) = if p = .StdIO then [39, 186] else [] := by
  cases p <;> decide +kernel

theorem queryNrs_all (ps : List Promise) : queryNrs (allFilters ps) = (List.replicate (ps.count .StdIO) [39, 186]).flatten := by
  have h : ∀ l : List Promise, queryNrs ((l.map filtersOf).flatten) = (List.replicate (l.count .StdIO) [39, 186]).flatten := by
    intro l
    induction l with
    | nil => rfl
    | cons p l ih =>
      rw [List.map_cons, List.flatten_cons, queryNrs_append, ih, queryNrs_promise, List.count_cons]
      by_cases hp : p = .StdIO
      · subst hp
        simp [List.replicate_succ]
      · simp [hp]
  unfold allFilters
  rw [h, List.count_cons]
  simp

/-- Does the fate of a query let the generator go on? -/
def Goes' (handler : Bool) (o : Outcome) : Prop := o = .executed ∨ (∃ n, o = .errno n) ∨ o = .trap ∧ handler = true

theorem frag_pid (pid tid : BitVec 32) : frag ⟨pid, 0⟩ .KillSelf = frag ⟨pid, tid⟩ .KillSelf := rfl
theorem frag_tid (pid tid : BitVec 32) : frag ⟨0, tid⟩ .TkillSelf = frag ⟨pid, tid⟩ .TkillSelf := rfl

theorem frag_noid (ids ids' : Ids) (f : Filtered) (h : f ≠ .KillSelf ∧ f ≠ .TkillSelf) : frag ids f = frag ids' f := by
  cases f <;> first | rfl | exact absurd rfl h.1 | exact absurd rfl h.2

/-- No query stops the generator. -/
theorem fragsBy_goes (b : Build) (handler : Bool) (t : Thread) (q : Nat → Query) (o : Outcome)
    (ho : ∀ k, enter t (q k).getpid = o ∧ enter t (q k).gettid = o) (hg : Goes' handler o) (k : Nat) (fs : List Filtered) :
    ∃ codes, fragsBy b handler t q k fs = (queries q k fs, .ok (.ok codes)) ∧
      (o = .executed → codes = fs.map (frag ⟨t.pid, t.tid⟩)) := by
  induction fs generalizing k with
  | nil => exact ⟨[], rfl, fun _ => rfl⟩
  | cons f fs ih =>
    obtain ⟨codes, h1, h2⟩ := ih (k + 1)
    have one : ∃ code, fragBy b handler t (q k) f =
        ((match f with | .KillSelf => [(q k).getpid] | .TkillSelf => [(q k).gettid] | _ => []), .ok (.ok code)) ∧
        (o = .executed → code = frag ⟨t.pid, t.tid⟩ f) := by
      by_cases hk : f = .KillSelf
      · subst hk
        simp only [fragBy, (ho k).1, filterToBpf_eq]
        rcases hg with rfl | ⟨n, rfl⟩ | ⟨rfl, rfl⟩
        · exact ⟨_, rfl, fun _ => rfl⟩
        · exact ⟨_, rfl, fun h => by cases h⟩
        · exact ⟨_, rfl, fun h => by cases h⟩
      · by_cases ht : f = .TkillSelf
        · subst ht
          simp only [fragBy, (ho k).2, filterToBpf_eq]
          rcases hg with rfl | ⟨n, rfl⟩ | ⟨rfl, rfl⟩
          · exact ⟨_, rfl, fun _ => rfl⟩
          · exact ⟨_, rfl, fun h => by cases h⟩
          · exact ⟨_, rfl, fun h => by cases h⟩
        · refine ⟨frag ⟨0, 0⟩ f, ?_, fun _ => frag_noid _ _ f ⟨hk, ht⟩⟩
          cases f <;> first | exact absurd rfl hk | exact absurd rfl ht | (simp only [fragBy, filterToBpf_eq]; done)
    obtain ⟨code, h3, h4⟩ := one
    refine ⟨code :: codes, ?_, fun h => by rw [List.map_cons, h2 h, h4 h]⟩
    rw [fragsBy, h3]
    simp only [h1]
    cases f <;> rfl

/-- A query stops the generator: the first one does. -/
theorem fragsBy_stops (b : Build) (handler : Bool) (t : Thread) (q : Nat → Query) (o : Outcome)
    (ho : ∀ k, enter t (q k).getpid = o ∧ enter t (q k).gettid = o) (hg : ¬ Goes' handler o) (k : Nat) (fs : List Filtered) :
    (queryNrs fs ≠ [] → fragsBy b handler t q k fs = ((queries q k fs).take 1, .error o)) ∧
    (queryNrs fs = [] → ∃ codes, fragsBy b handler t q k fs = ([], .ok (.ok codes))) := by
  have stop : o = .killThread ∨ o = .killProcess ∨ o = .trap ∧ handler = false := by
    cases o with
    | executed => exact absurd (.inl rfl) hg
    | errno n => exact absurd (.inr (.inl ⟨n, rfl⟩)) hg
    | trap =>
      cases handler with
      | true => exact absurd (.inr (.inr ⟨rfl, rfl⟩)) hg
      | false => exact .inr (.inr ⟨rfl, rfl⟩)
    | killThread => exact .inl rfl
    | killProcess => exact .inr (.inl rfl)
  induction fs generalizing k with
  | nil => exact ⟨fun h => absurd rfl h, fun _ => ⟨[], rfl⟩⟩
  | cons f fs ih =>
    by_cases hk : f = .KillSelf
    · subst hk
      refine ⟨fun _ => ?_, fun h => by simp [queryNrs] at h⟩
      rw [fragsBy]
      simp only [fragBy, (ho k).1]
      rcases stop with rfl | rfl | ⟨rfl, rfl⟩ <;> rfl
    · by_cases ht : f = .TkillSelf
      · subst ht
        refine ⟨fun _ => ?_, fun h => by simp [queryNrs] at h⟩
        rw [fragsBy]
        simp only [fragBy, (ho k).2]
        rcases stop with rfl | rfl | ⟨rfl, rfl⟩ <;> rfl
      · have e1 : queryNrs (f :: fs) = queryNrs fs := by
          cases f <;> first | exact absurd rfl hk | exact absurd rfl ht | rfl
        have e2 : queries q k (f :: fs) = queries q (k + 1) fs := by
          cases f <;> first | exact absurd rfl hk | exact absurd rfl ht | rfl
        have e3 : fragBy b handler t (q k) f = ([], .ok (.ok (frag ⟨0, 0⟩ f))) := by
          cases f <;> first | exact absurd rfl hk | exact absurd rfl ht | (simp only [fragBy, filterToBpf_eq]; done)
        rw [e1, e2]
        obtain ⟨i1, i2⟩ := ih (k + 1)
        constructor
        · intro h
          rw [fragsBy, e3]
          simp only [i1 h, List.nil_append]
        · intro h
          obtain ⟨codes, h'⟩ := i2 h
          refine ⟨frag ⟨0, 0⟩ f :: codes, ?_⟩
          rw [fragsBy, e3]
          simp only [h', List.nil_append]

/-- In a thread that has pledged every query meets the same fate as the library's prctl calls. -/
theorem enter_query {t : Thread} {l : List Past} (h : HasPledged t l) (env : Env) (q : Query) :
    enter t q.getpid = enter t (recNnp env) ∧ enter t q.gettid = enter t (recNnp env) := by
  let env' : Env := { env with ip := fun _ => q.ip, junk := fun _ => q.junk }
  exact ⟨enter_own h env' env q.getpid (.inl rfl), enter_own h env' env q.gettid (.inr (.inl rfl))⟩

theorem queryNrs_nil (ps : List Promise) : queryNrs (allFilters ps) = [] ↔ asksIds ps = false := by
  have h := asksIds_iff ps
  rw [queryNrs_all]
  by_cases hs : .StdIO ∈ ps
  · have : 0 < ps.count .StdIO := List.count_pos_iff.2 hs
    rw [h.2 hs]
    constructor
    · intro h'
      cases hc : ps.count .StdIO with
      | zero => omega
      | succ n => rw [hc, List.replicate_succ] at h'; simp at h'
    · intro h'; cases h'
  · have : ps.count .StdIO = 0 := List.count_eq_zero.2 hs
    have : asksIds ps = false := by
      cases ha : asksIds ps with
      | false => rfl
      | true => exact absurd (h.1 ha) hs
    simp [*]

end Spec
