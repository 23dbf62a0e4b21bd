import Verif.Spec.Readback
import Verif.Spec.History
import Verif.Props.Verdict
import Verif.Props.Install
import Verif.Props.Encoding

/-!
# C112: a filter tells what it was made from
-/
set_option autoImplicit false

namespace Props
open Pledge Bpfvm Kernel Spec

/-- The instructions for one promise. -/
theorem body_append (ids : Ids) (x y : List Filtered) : body ids (x ++ y) = body ids x ++ body ids y := by
  simp [body]

theorem body_flat (ids : Ids) (ps : List Promise) : body ids (ps.map filtersOf).flatten = (ps.map fun p => body ids (filtersOf p)).flatten := by
  induction ps with
  | nil => rfl
  | cons p ps ih => simp only [List.map_cons, List.flatten_cons, body_append, ih]

/-- Where the instructions of a promise begin. -/
def firstOf (p : Promise) : Option SockFilter := (body ⟨0, 0⟩ (filtersOf p))[0]?

theorem first_ids (ids : Ids) (p : Promise) : (body ids (filtersOf p))[0]? = firstOf p := by
  cases p <;> rfl

theorem firsts : ∀ p ∈ allPromises, ∀ q ∈ allPromises, firstOf p = firstOf q →
    readAs p = readAs q ∨ p = .Inet ∧ q = .Dns ∨ p = .Dns ∧ q = .Inet := by decide +kernel

theorem first_jeq : ∀ p ∈ allPromises, ((firstOf p).map SockFilter.code) = some 0x15 := by decide +kernel

theorem frag_size (ids ids' : Ids) (f : Filtered) : (frag ids f).length = (frag ids' f).length := by
  cases f <;> rfl

theorem body_size (ids ids' : Ids) (fs : List Filtered) : (body ids fs).length = (body ids' fs).length := by
  induction fs with
  | nil => rfl
  | cons f fs ih =>
    simp only [body, List.map_cons, List.flatten_cons, List.length_append, frag_size ids ids' f] at ih ⊢
    omega

theorem body_same (ids ids' : Ids) (fs : List Filtered) (h : body ids fs = body ids' fs) : ∀ f ∈ fs, frag ids f = frag ids' f := by
  induction fs with
  | nil => simp
  | cons f fs ih =>
    obtain ⟨h1, h2⟩ := List.append_inj (show frag ids f ++ body ids fs = frag ids' f ++ body ids' fs from h) (frag_size ids ids' f)
    intro g hg
    rcases List.mem_cons.1 hg with rfl | hg
    · exact h1
    · exact ih h2 g hg

theorem same_rules (p q : Promise) (h : readAs p = readAs q) : filtersOf p = filtersOf q := by
  cases p <;> cases q <;> first | rfl | cases h

theorem same_ids (ids ids' : Ids) (p : Promise) (h : p = .StdIO → ids = ids') : body ids (filtersOf p) = body ids' (filtersOf p) := by
  by_cases hp : p = .StdIO
  · rw [h hp]
  · revert hp
    cases p <;> first | (intro _; rfl) | simp

theorem getElem?_append_some {α : Type} {x y : List α} {i : Nat} {a : α} (h : x[i]? = some a) : (x ++ y)[i]? = some a := by
  rw [List.getElem?_append_left (List.getElem?_eq_some_iff.1 h).1, h]

theorem first_piece (ids ids' : Ids) (p q : Promise) (x y : List SockFilter)
    (h : body ids (filtersOf p) ++ x = body ids' (filtersOf q) ++ y) :
    readAs p = readAs q ∧ (p = .StdIO → ids = ids') ∧ x = y := by
  have hf : ∀ (ids : Ids) (p : Promise) (x : List SockFilter), (body ids (filtersOf p) ++ x)[0]? = firstOf p := by
    intro ids p x
    rw [← first_ids ids p]
    cases hp : (body ids (filtersOf p))[0]? with
    | none =>
      rw [first_ids] at hp
      have := first_jeq p (mem_allPromises p)
      rw [hp] at this; cases this
    | some a => exact getElem?_append_some hp
  have h0 := hf ids p x
  rw [h, hf] at h0
  have hpl : readAs p = readAs q := by
    rcases firsts p (mem_allPromises p) q (mem_allPromises q) h0.symm with e | ⟨rfl, rfl⟩ | ⟨rfl, rfl⟩
    · exact e
    · have h1 := congrArg (fun l : List SockFilter => l[17]?) h
      replace h1 : (_ ++ x)[17]? = (_ ++ y)[17]? := h1
      rw [getElem?_append_some (x := body ids (filtersOf .Inet)) (i := 17) rfl,
        getElem?_append_some (x := body ids' (filtersOf .Dns)) (i := 17) rfl] at h1
      exact absurd h1 (by decide)
    · have h1 := congrArg (fun l : List SockFilter => l[17]?) h
      replace h1 : (_ ++ x)[17]? = (_ ++ y)[17]? := h1
      rw [getElem?_append_some (x := body ids (filtersOf .Dns)) (i := 17) rfl,
        getElem?_append_some (x := body ids' (filtersOf .Inet)) (i := 17) rfl] at h1
      exact absurd h1 (by decide)
  rw [same_rules q p hpl.symm] at h
  obtain ⟨h1, h2⟩ := List.append_inj h (body_size ids ids' _)
  refine ⟨hpl, ?_, h2⟩
  rintro rfl
  have ha := body_same _ _ _ h1 .KillSelf (by decide)
  have hb := body_same _ _ _ h1 .TkillSelf (by decide)
  simp only [frag, List.cons.injEq, SockFilter.mk.injEq, true_and, and_true] at ha hb
  cases ids; cases ids'
  simp_all

theorem pieces_tell (ids ids' : Ids) (u u' : BitVec 32) (ps qs : List Promise)
    (h : (ps.map fun p => body ids (filtersOf p)).flatten ++ [⟨0x6, 0, 0, u⟩] =
      (qs.map fun p => body ids' (filtersOf p)).flatten ++ [⟨0x6, 0, 0, u'⟩]) :
    ps.map readAs = qs.map readAs ∧ u = u' ∧ (.StdIO ∈ ps → ids = ids') := by
  have hne : ∀ (ids : Ids) (u : BitVec 32) (p : Promise) (x : List SockFilter), [(⟨0x6, 0, 0, u⟩ : SockFilter)] ≠ body ids (filtersOf p) ++ x := by
    intro ids u p x h
    have h0 := congrArg (fun l : List SockFilter => l[0]?) h
    have h1 := first_jeq p (mem_allPromises p)
    rw [← first_ids ids p] at h1
    cases hp : (body ids (filtersOf p))[0]? with
    | none => rw [hp] at h1; cases h1
    | some a =>
      rw [hp] at h1
      rw [show (body ids (filtersOf p) ++ x)[0]? = some a from getElem?_append_some hp] at h0
      cases h0
      cases h1
  induction ps generalizing qs with
  | nil =>
    cases qs with
    | nil => simpa using h
    | cons q qs =>
      refine absurd h ?_
      simp only [List.map_nil, List.flatten_nil, List.nil_append, List.map_cons, List.flatten_cons, List.append_assoc]
      exact hne ids' u q _
  | cons p ps ih =>
    cases qs with
    | nil =>
      refine absurd h.symm ?_
      simp only [List.map_nil, List.flatten_nil, List.nil_append, List.map_cons, List.flatten_cons, List.append_assoc]
      exact hne ids u' p _
    | cons q qs =>
      simp only [List.map_cons, List.flatten_cons, List.append_assoc] at h
      obtain ⟨h1, h2, h3⟩ := first_piece ids ids' p q _ _ h
      obtain ⟨h4, h5, h6⟩ := ih qs h3
      refine ⟨by simp only [List.map_cons, h1, h4], h5, fun hm => ?_⟩
      rcases List.mem_cons.1 hm with e | hm
      · exact h2 e.symm
      · exact h6 hm

/-- C112: two calls of `pledge_override` make the same filter exactly if the lists are the same, one promise after the other and with
repetitions, but for SendFd in the place of RecvFd; the violations are encoded alike; and, if StdIO is promised, the ids are the same.
The build does not matter. -/
theorem C112_same (b b' : Build) (ids ids' : Ids) (ps qs : List Promise) (v v' : SeccompReturn) :
    promisesToProg b ids ps v = promisesToProg b' ids' qs v' ↔
      ps.map readAs = qs.map readAs ∧ v.toU32 = v'.toU32 ∧ (.StdIO ∈ ps → ids = ids') := by
  rw [promisesToProg_eq, promisesToProg_eq]
  have hd : ∀ (ids : Ids) (ps : List Promise) (u : BitVec 32), progOf ids ps u = header ++ (body ⟨0, 0⟩ (filtersOf .Default) ++
      ((ps.map fun p => body ids (filtersOf p)).flatten ++ [⟨0x6, 0, 0, u⟩])) := by
    intro ids ps u
    unfold progOf allFilters
    rw [List.map_cons, List.flatten_cons, body_append, body_flat, same_ids ids ⟨0, 0⟩ .Default (by simp)]
    simp only [List.append_assoc]
  constructor
  · intro h
    injection h with h
    rw [hd, hd] at h
    exact pieces_tell ids ids' _ _ ps qs (List.append_cancel_left (List.append_cancel_left h))
  · rintro ⟨h1, h2, h3⟩
    rw [hd, hd, h2]
    congr 4
    clear hd
    induction ps generalizing qs with
    | nil => cases qs with
      | nil => rfl
      | cons q qs => simp at h1
    | cons p ps ih =>
      cases qs with
      | nil => simp at h1
      | cons q qs =>
        simp only [List.map_cons, List.cons.injEq] at h1
        simp only [List.map_cons, List.flatten_cons]
        rw [ih qs h1.2 (fun h => h3 (List.mem_cons_of_mem _ h)), same_ids ids ids' p (fun e => h3 (by simp [e])), same_rules p q h1.1]

/-- Not vacuous: the order of the promises, and a promise given twice, can be seen in the filter. -/
example : promisesToProg ⟨false⟩ ⟨7, 8⟩ [.StdIO, .Inet] .Trap ≠ promisesToProg ⟨false⟩ ⟨7, 8⟩ [.Inet, .StdIO] .Trap ∧
    promisesToProg ⟨false⟩ ⟨7, 8⟩ [.Tty] .Trap ≠ promisesToProg ⟨false⟩ ⟨7, 8⟩ [.Tty, .Tty] .Trap ∧
    promisesToProg ⟨false⟩ ⟨7, 8⟩ [.StdIO] .Trap ≠ promisesToProg ⟨false⟩ ⟨7, 9⟩ [.StdIO] .Trap ∧
    promisesToProg ⟨false⟩ ⟨7, 8⟩ [.Tty, .SendFd] .Trap = promisesToProg ⟨true⟩ ⟨7, 9⟩ [.Tty, .RecvFd] .Trap := by
  simp only [ne_eq, C112_same]
  decide

/-- Without the bound on the payload the violation is not told: these two make the same filter. -/
example : promisesToProg ⟨false⟩ ⟨7, 8⟩ [.Tty] (.Errno 0x10000) = promisesToProg ⟨false⟩ ⟨7, 8⟩ [.Tty] (.Errno 0) := by
  rw [C112_same]
  decide

/-- C112: for violations that mean what they say (payloads of at most 16 bits), the filter tells the violation. -/
theorem C112_violation (b b' : Build) (ids ids' : Ids) (ps qs : List Promise) (v v' : SeccompReturn) (hv : PayloadFits v)
    (hv' : PayloadFits v') (h : promisesToProg b ids ps v = promisesToProg b' ids' qs v') : v = v' := by
  have h1 := ((C112_same b b' ids ids' ps qs v v').1 h).2.1
  have h2 := C10_decode_encode v hv
  rw [h1, C10_decode_encode v' hv'] at h2
  cases h2; rfl

/-- Not vacuous: a program and itself. -/
example := C112_violation ⟨true⟩ ⟨false⟩ ⟨100, 100⟩ ⟨100, 100⟩ [.StdIO] [.StdIO] (.Errno 1) (.Errno 1) (by simp [PayloadFits]) (by simp [PayloadFits]) (by rw [promisesToProg_eq, promisesToProg_eq])

/-- C112: the filters of a thread tell all its pledges. If it has pledged `l`, then it can be said to have pledged `l'` exactly if `l'` has
as many pledges, and each of them could have made the same filter. -/
theorem C112_history (t : Thread) (l l' : List Past) (hl : HasPledged t l) :
    HasPledged t l' ↔ l'.length = l.length ∧ ∀ (i : Nat) (p p' : Past), l[i]? = some p → l'[i]? = some p' →
      p.ps.map readAs = p'.ps.map readAs ∧ p.v.toU32 = p'.v.toU32 ∧ (.StdIO ∈ p.ps → p.ids = p'.ids) := by
  unfold HasPledged at hl ⊢
  rw [hl]
  constructor
  · intro h
    have hlen := congrArg List.length h
    simp only [List.length_map] at hlen
    refine ⟨hlen.symm, fun i p p' h1 h2 => ?_⟩
    have := congrArg (fun x : List (Res PledgeError (List SockFilter)) => x[i]?) h
    simp only [List.getElem?_map, h1, h2, Option.map_some, Option.some.injEq] at this
    exact (C112_same _ _ _ _ _ _ _ _).1 this
  · rintro ⟨h1, h2⟩
    apply List.ext_getElem?
    intro i
    simp only [List.getElem?_map]
    cases h3 : l[i]? with
    | none =>
      have : l'[i]? = none := by rw [List.getElem?_eq_none_iff] at h3 ⊢; omega
      rw [this]
    | some p =>
      cases h4 : l'[i]? with
      | none => rw [List.getElem?_eq_none_iff] at h4; have := (List.getElem?_eq_some_iff.1 h3).1; omega
      | some p' =>
        simp only [Option.map_some, Option.some.injEq]
        exact (C112_same _ _ _ _ _ _ _ _).2 (h2 i p p' h3 h4)

/-- Not vacuous: the thread that pledged StdIO and then Tty has done nothing else. -/
example : ∃ t : Thread, HasPledged t [⟨⟨7, 8⟩, [.Tty], .Trap⟩, ⟨⟨7, 8⟩, [.StdIO], .Trap⟩] ∧
    HasPledged t [⟨⟨1, 1⟩, [.Tty], .Trap⟩, ⟨⟨7, 8⟩, [.StdIO], .Trap⟩] ∧
    ¬ HasPledged t [⟨⟨7, 8⟩, [.StdIO], .Trap⟩, ⟨⟨7, 8⟩, [.Tty], .Trap⟩] := by
  have h : HasPledged ⟨7, 8, [progOf ⟨7, 8⟩ [.Tty] (SeccompReturn.toU32 .Trap), progOf ⟨7, 8⟩ [.StdIO] (SeccompReturn.toU32 .Trap)], true, false, true⟩
      [⟨⟨7, 8⟩, [.Tty], .Trap⟩, ⟨⟨7, 8⟩, [.StdIO], .Trap⟩] := by
    simp [HasPledged, promisesToProg_eq]
  refine ⟨_, h, (C112_history _ _ _ h).2 ⟨rfl, ?_⟩, fun h' => ?_⟩
  · intro i p p' h1 h2
    match i with
    | 0 => cases h1; cases h2; decide
    | 1 => cases h1; cases h2; decide
    | i + 2 => simp at h1
  · have := ((C112_history _ _ _ h).1 h').2 0 _ _ rfl rfl
    exact absurd this.1 (by decide)

end Props
