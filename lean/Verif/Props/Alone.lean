import Verif.Proofs.Alone
import Verif.Props.Account
import Verif.Props.Table

/-!
# C102: a call that nobody interrupts, with the promise table and the hash keys

`Pledge.World`: threads with the calls they are in, the table of promises of each process and the hash keys of each thread (Model/Full).
`Spec.upshot`: what becomes of a call (Spec/Alone). C100 has the calls of threads that have their keys, when the table is there; C86 has the
keys in a model of single calls (`pledgeKeyed`). Here every thread and every state of the table is covered.
-/
set_option autoImplicit false

namespace Props
open Spec Pledge Bpfvm Kernel

theorem filters_count (ps : List Promise) : (allFilters ps).length + 5 = ((ps.map filtersOf).flatten).length + 6 := by
  have h4 : (filtersOf .Default).length = 1 := by decide
  unfold allFilters
  simp only [List.map_cons, List.flatten_cons, List.length_append, h4]
  omega

theorem finish_shape {c : World} {i : Nat} {w : Hand} (h : c.hands[i]? = some w) (ha : w.thread.alive = true) (cells : List Cell)
    (keys : Bool) (t : Thread) (r : PledgeRes) :
    (finish { c with cells := cells } i { w with keys := keys } t r).threads = c.threads.on i (fun _ => (t, r.death)) ∧
    (finish { c with cells := cells } i { w with keys := keys } t r).cells = cells ∧
    (r.death = none → (finish { c with cells := cells } i { w with keys := keys } t r).hands = c.hands.set i { w with thread := t, keys := keys }) := by
  simp only [System.on, world_threads_get h, ha, if_true, finish]
  cases r.death with
  | none => exact ⟨put_threads _ _ _, rfl, fun _ => rfl⟩
  | some o =>
    refine ⟨?_, rfl, fun h => by cases h⟩
    simp only [lose_threads, put_threads]
    rfl

/-- C102: a living thread `w` calls `pledge_override` and then does nothing but the steps of that call. If no other thread is making the
promise table, the call is over after at most six steps more than its promises have rules, and then the thread, its keys and the table
are what `upshot` says, the call has ended with the result `upshot` says, everything else is as before, and it and its process are dead
if the call ended in death. -/
theorem C102_alone (c : World) (i : Nat) (w : Hand) (h : c.hands[i]? = some w) (ha : w.thread.alive = true) (x : Cell)
    (hx : c.cells[w.mem]? = some x) (b : Build) (env : Env) (q : Nat → Query) (seed : Seed) (ps : List Promise) (v : SeccompReturn)
    (r : Upshot) (hr : upshot b env q seed w.thread w.keys x ps v = some r) :
    ∃ n, n ≤ ((ps.map filtersOf).flatten).length + 6 ∧
      let c' := c.run (.enter i b env q seed ps v :: List.replicate n (.go i))
      c'.threads = c.threads.on i (fun _ => (r.thread, r.res.death)) ∧ c'.cells = c.cells.set w.mem r.cell ∧
      (r.res.death = none → c'.hands = c.hands.set i { w with thread := r.thread, keys := r.keys }) ∧
      resultsIn c (.enter i b env q seed ps v :: List.replicate n (.go i)) = [(i, r.res)] := by
  obtain ⟨n, h1, h2, h3⟩ := alone_run h ha x hx seed b env q ps v r hr
  refine ⟨n, filters_count ps ▸ h1, ?_⟩
  dsimp only
  rw [show List.replicate n (.go i) = gos i n from rfl, h2]
  obtain ⟨g1, g2, g3⟩ := finish_shape h ha (c.cells.set w.mem r.cell) r.keys r.thread r.res
  exact ⟨g1, g2, g3, h3⟩

/-- C102: while another thread makes the table, the call waits: no number of its steps changes anything. -/
theorem C102_waits (c : World) (i : Nat) (w : Hand) (h : c.hands[i]? = some w) (ha : w.thread.alive = true)
    (hx : c.cells[w.mem]? = some .running) (b : Build) (env : Env) (q : Nat → Query) (seed : Seed) (ps : List Promise) (v : SeccompReturn)
    (n : Nat) :
    let c' := c.run (.enter i b env q seed ps v :: List.replicate n (.go i))
    c'.threads = c.threads ∧ c'.cells = c.cells ∧ (∀ j, j ≠ i → c'.hands[j]? = c.hands[j]?) ∧
    ∃ f, c'.hands[i]? = some { w with errands := f :: w.errands } := by
  dsimp only
  rw [show List.replicate n (.go i) = gos i n from rfl, alone_waits h ha hx seed b env q ps v n]
  refine ⟨?_, rfl, fun j hj => ?_, ⟨⟨b, env, q, ps, v, .start⟩, seed, .table⟩, ?_⟩
  · refine (put_threads c i { w with errands := ⟨⟨b, env, q, ps, v, .start⟩, seed, .table⟩ :: w.errands }).trans ?_
    exact set_there (a := w.thread) (world_threads_get h)
  · simp only [List.getElem?_set_ne (Ne.symm hj)]
  · exact List.getElem?_set_self (List.getElem?_eq_some_iff.1 h).1

/-- C102: for threads that only the library has filtered, and with the table there, that is the call with keys of C86. -/
theorem C102_table_there (b : Build) (env : Env) (q : Nat → Query) (seed : Seed) (t : Thread) (l : List Past) (hl : HasPledged t l)
    (keys : Bool) (ps : List Promise) (v : SeccompReturn) :
    (upshot b env q seed t keys .ready ps v).map (fun r => ((r.thread, r.res), r.cell)) =
      some (pledgeKeyed b env seed keys t ps v, .ready) := by
  have h1 := C78_as_if_asked_once b env q t l hl ps v
  unfold upshot pledgeKeyed
  simp only
  cases keys with
  | true => simp only [if_true, Option.map_some, h1]
  | false =>
    simp only [Bool.false_eq_true, if_false]
    cases askKeys env.handler t seed with
    | error r => rfl
    | ok u => simp only [Option.map_some, h1]

/-- Not vacuous: a thread that has pledged. -/
example (q : Nat → Query) (seed : Seed) := C102_table_there ⟨true⟩ calm q seed ({ thread0 with nnp := true, filters := [progOf ⟨100, 100⟩ [.StdIO] (.KillProcess : SeccompReturn).toU32] }) [⟨⟨100, 100⟩, [.StdIO], .KillProcess⟩] ((hasPledged_iff _ _).2 rfl) true [.RPath] .Log

/-- C102: the first call in a process without filters, alone: the call of `Model/Pledge`, and then the table is there and the thread has
its keys. -/
theorem C102_first (b : Build) (env : Env) (q : Nat → Query) (seed : Seed) (t : Thread) (hl : t.filters = []) (keys : Bool)
    (ps : List Promise) (v : SeccompReturn) :
    upshot b env q seed t keys .idle ps v = some ⟨(pledgeOverride b env t ps v).1, (pledgeOverride b env t ps v).2, true, .ready⟩ := by
  have h1 := C78_as_if_asked_once b env q t [] ((hasPledged_iff _ _).2 hl) ps v
  have hk : askKeys env.handler t seed = .ok () := by
    have : enter t seed.getrandom = .executed := enter_free t hl _
    unfold askKeys
    simp only [this]
  unfold upshot
  rw [← h1]
  cases keys <;> simp [hk]

/-! ## the hypotheses can be met -/

/-- The first call of a process. Its steps are: look at the table, make it, look up the promises, make the fragments one by one, two
system calls. -/
example (q : Nat → Query) (seed : Seed) : ∃ n, n ≤ (filtersOf .StdIO).length + 6 ∧
    (world0.run (.enter 0 ⟨true⟩ calm q seed [.StdIO] .KillProcess :: List.replicate n (.go 0))).cells = [.ready] := by
  obtain ⟨n, h1, _, h2, _⟩ := C102_alone world0 0 ⟨thread0, 0, false, [], [⟨100, 100⟩]⟩ rfl rfl .idle rfl ⟨true⟩ calm q seed [.StdIO] .KillProcess
    _ (C102_first ⟨true⟩ calm q seed thread0 rfl false [.StdIO] .KillProcess)
  exact ⟨n, by simpa using h1, h2⟩

/-- A thread under a filter that refuses everything, without keys: if the standard library panics, the table is spoiled for the process
(C97) when the thread was making it, and not when it only needed keys. -/
example (s : Seed) (hs : s.fallback = .panics) (b : Build) (env : Env) (q : Nat → Query) :
    upshot b env q s { thread0 with filters := [refusing] } false .idle [.StdIO] .KillProcess =
      some ⟨{ thread0 with filters := [refusing] }, .panic, false, .poisoned⟩ ∧
    upshot b env q s { thread0 with filters := [refusing] } false .ready [.StdIO] .KillProcess =
      some ⟨{ thread0 with filters := [refusing] }, .panic, false, .ready⟩ := by
  have hr : ∀ w, Kernel.run (fun _ => 0) refusing w = some 0x00050001#32 := by
    intro w
    unfold Kernel.run Kernel.runFrom
    simp only [refusing, List.getElem?_cons_zero, Kernel.step]
    rfl
  have he : Kernel.enter { thread0 with filters := [refusing] } s.getrandom = .errno 1 := by
    simp only [Kernel.enter, Kernel.runFilters, List.foldl_cons, List.foldl_nil, hr, Option.getD_some]
    decide
  have hk : askKeys env.handler { thread0 with filters := [refusing] } s = .error .panic := by
    unfold askKeys
    simp only [he, hs]
  simp [upshot, hk]

end Props
