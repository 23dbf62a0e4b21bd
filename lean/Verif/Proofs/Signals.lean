import Verif.Proofs.Mixed
import Verif.Proofs.Sched
import Verif.Props.Grow
import Verif.Props.Ids

/-!
# Invariants of runs with signal handlers
-/
set_option autoImplicit false

namespace Pledge
open Bpfvm Kernel Spec Props

/-- Where the ids in the fragments `l` come from: the thread or one it descends from, or (unless `strict`) a failed query. -/
def Src (strict : Bool) (line : List Ids) (q : Nat → Query) (l : List (Ids × Filtered)) : Prop :=
  ∀ x ∈ l, (x.2 = .KillSelf → (∃ i ∈ line, i.pid = x.1.pid) ∨ strict = false ∧ ∃ k, x.1.pid = (q k).fail) ∧
    (x.2 = .TkillSelf → (∃ i ∈ line, i.tid = x.1.tid) ∨ strict = false ∧ ∃ k, x.1.tid = (q k).fail)

/-- The library's own calls are not executed. -/
def Blocked (t : Thread) : Prop := ∀ env, enter t (recNnp env) ≠ .executed

def FilterOK (strict : Bool) (E : (Nat → Query) → List Promise → SeccompReturn → Prop) (line : List Ids) (f : Prog) : Prop :=
  ∃ l ps v q, f = mixProg l v.toU32 ∧ l.map Prod.snd = allFilters ps ∧ E q ps v ∧ Src strict line q l

def ActOK (strict : Bool) (E : (Nat → Query) → List Promise → SeccompReturn → Prop) (t : Thread) (line : List Ids) (a : Act) : Prop :=
  E a.q a.ps a.v ∧
  match a.phase with
  | .start => True
  | .making _ rest codes => ∃ l, codes = l.map (fun x => frag x.1 x.2) ∧ l.map Prod.snd ++ rest = allFilters a.ps ∧
      (Src strict line a.q l ∨ strict = true ∧ Blocked t)
  | .armed prog => ∃ l, prog = mixProg l a.v.toU32 ∧ l.map Prod.snd = allFilters a.ps ∧
      (Src strict line a.q l ∨ strict = true ∧ Blocked t) ∧ (strict = true → t.nnp = true ∨ Blocked t)

structure BusyOK (strict : Bool) (E : (Nat → Query) → List Promise → SeccompReturn → Prop) (sl : Busy) : Prop where
  own : ⟨sl.thread.pid, sl.thread.tid⟩ ∈ sl.line
  filters : ∀ f ∈ sl.thread.filters, FilterOK strict E sl.line f
  acts : ∀ a ∈ sl.acts, ActOK strict E sl.thread sl.line a
  nnp : strict = true → sl.thread.filters ≠ [] → sl.thread.nnp = true

variable {strict : Bool} {E : (Nat → Query) → List Promise → SeccompReturn → Prop}

theorem Src.mono {line line' : List Ids} {q : Nat → Query} {l : List (Ids × Filtered)} (h : Src strict line q l)
    (hl : ∀ i ∈ line, i ∈ line') : Src strict line' q l := by
  intro x hx
  obtain ⟨h1, h2⟩ := h x hx
  refine ⟨fun hk => (h1 hk).imp ?_ id, fun hk => (h2 hk).imp ?_ id⟩ <;>
    exact fun ⟨i, hi, he⟩ => ⟨i, hl i hi, he⟩

theorem FilterOK.mono {line line' : List Ids} {f : Prog} (h : FilterOK strict E line f) (hl : ∀ i ∈ line, i ∈ line') :
    FilterOK strict E line' f := by
  obtain ⟨l, ps, v, q, h1, h2, h3, h4⟩ := h
  exact ⟨l, ps, v, q, h1, h2, h3, h4.mono hl⟩

/-- Changing the thread and the line. -/
theorem ActOK.mono {line line' : List Ids} {t t' : Thread} {a : Act} (h : ActOK strict E t line a) (hl : ∀ i ∈ line, i ∈ line')
    (hb : strict = true → Blocked t → Blocked t') (hn : t.nnp = true → t'.nnp = true) : ActOK strict E t' line' a := by
  obtain ⟨h1, h2⟩ := h
  refine ⟨h1, ?_⟩
  split at h2
  · trivial
  · obtain ⟨l, g1, g2, g3⟩ := h2
    exact ⟨l, g1, g2, g3.imp (·.mono hl) (fun ⟨x, y⟩ => ⟨x, hb x y⟩)⟩
  · obtain ⟨l, g1, g2, g3, g4⟩ := h2
    exact ⟨l, g1, g2, g3.imp (·.mono hl) (fun ⟨x, y⟩ => ⟨x, hb x y⟩), fun x => (g4 x).imp hn (hb x)⟩

theorem blocked_same {t t' : Thread} (h : t'.filters = t.filters) (hb : Blocked t) : Blocked t' := by
  intro env
  have := hb env
  unfold enter at *
  rwa [h]

theorem BusyOK.lift {sl : Busy} (h : BusyOK strict E sl) {t' : Thread} (hp : t'.pid = sl.thread.pid) (ht : t'.tid = sl.thread.tid)
    (hf : t'.filters = sl.thread.filters) (hn : sl.thread.nnp = true → t'.nnp = true) : BusyOK strict E { sl with thread := t' } where
  own := by simp only [hp, ht]; exact h.own
  filters := by simp only [hf]; exact h.filters
  acts := fun a ha => (h.acts a ha).mono (fun _ hi => hi) (fun _ => blocked_same hf) hn
  nnp := by simp only [hf]; exact fun hs hne => hn (h.nnp hs hne)

/-! ## what the filters do -/

theorem FilterOK.told {line : List Ids} {f : Prog} (h : FilterOK strict E line f) :
    ∃ p : Told, Decides f p ∧ (∃ q, E q p.ps p.v) ∧ p.pids.length = p.ps.count .StdIO ∧ p.tids.length = p.ps.count .StdIO := by
  obtain ⟨l, ps, v, q, rfl, h2, h3, _⟩ := h
  have := pidsOf_length l ps h2
  exact ⟨⟨pidsOf l, tidsOf l, ps, v⟩, mix_decides l ps v h2, ⟨q, h3⟩, this.1, this.2⟩

theorem told_nonempty {p : Told} (h1 : p.pids.length = p.ps.count .StdIO) (h2 : p.tids.length = p.ps.count .StdIO) :
    .StdIO ∈ p.ps → p.pids ≠ [] ∧ p.tids ≠ [] := by
  intro hs
  have hc : 0 < p.ps.count .StdIO := List.count_pos_iff.2 hs
  refine ⟨?_, ?_⟩ <;> intro h0 <;> simp only [h0, List.length_nil] at h1 h2 <;> omega

theorem decides_cur {f : Prog} {p : Told} (h : Decides f p) (d : SeccompData) : cur f d = p.verdict d := by
  unfold cur; rw [h]; rfl

/-- The library's own calls all meet the same fate. -/
theorem own_alike {t : Thread} {line : List Ids} (h : ∀ f ∈ t.filters, FilterOK strict E line f) (env env' : Env) (d : SeccompData)
    (hd : d = recGetpid env ∨ d = recGettid env ∨ d = recNnp env ∨ d = recSeccomp env) : enter t d = enter t (recNnp env') := by
  unfold enter
  congr 1
  apply runFilters_congr
  intro f hf
  obtain ⟨p, h1, _, h2, h3⟩ := (h f hf).told
  rw [decides_cur h1, decides_cur h1, told_own p (told_nonempty h2 h3) env d hd,
    told_own p (told_nonempty h2 h3) env' _ (.inr (.inr (.inl rfl)))]

theorem query_alike {t : Thread} {line : List Ids} (h : ∀ f ∈ t.filters, FilterOK strict E line f) (env : Env) (q : Query) :
    enter t q.getpid = enter t (recNnp env) ∧ enter t q.gettid = enter t (recNnp env) := by
  let env' : Env := { env with ip := fun _ => q.ip, junk := fun _ => q.junk }
  exact ⟨own_alike h env' env q.getpid (.inl rfl), own_alike h env' env q.gettid (.inr (.inl rfl))⟩

theorem told_cases (p : Told) (d : SeccompData) : p.verdict d = 0x80000000 ∨ p.verdict d = 0x7fff0000 ∨ p.verdict d = p.v.toU32 := by
  unfold Told.verdict
  split
  · exact .inl rfl
  · split
    · exact .inr (.inl rfl)
    · exact .inr (.inr rfl)

theorem FilterOK.sane {line : List Ids} {f : Prog} (h : FilterOK strict E line f) (hE : ∀ q ps v, E q ps v → ¬ Between v) : Sane f := by
  obtain ⟨p, h1, ⟨q, h2⟩, _⟩ := h.told
  intro d
  rw [decides_cur h1]
  have hb := hE _ _ _ h2
  rw [between_iff, not_or] at hb
  rcases told_cases p d with h | h | h <;> rw [h]
  · decide
  · decide
  · exact hb

theorem blocked_grows {t t' : Thread} (hs : ∀ f ∈ t.filters, Sane f) (hg : t.filters <:+ t'.filters) (hb : Blocked t) : Blocked t' :=
  fun env => denied_suffix hg hs _ (hb env)

/-! ## one step of a call -/

theorem nnp_fields (h : Option Int) (t : Thread) (d : SeccompData) (f : Option Fault) :
    (syscall h t d (setNnp f)).1.pid = t.pid ∧ (syscall h t d (setNnp f)).1.tid = t.tid ∧
    (syscall h t d (setNnp f)).1.filters = t.filters ∧ (t.nnp = true → (syscall h t d (setNnp f)).1.nnp = true) := by
  obtain ⟨h1, h2, h3, _, _, h4⟩ := nnp_same h t d f
  exact ⟨h1, h2, h3, h4⟩

theorem BusyOK.rest {t : Thread} {a : Act} {rest : List Act} {line : List Ids} (h : BusyOK strict E ⟨t, a :: rest, line⟩) :
    BusyOK strict E ⟨t, rest, line⟩ := ⟨h.own, h.filters, fun a' ha => h.acts a' (List.mem_cons_of_mem _ ha), h.nnp⟩

theorem BusyOK.swap {t : Thread} {a a' : Act} {rest : List Act} {line : List Ids} (h : BusyOK strict E ⟨t, a :: rest, line⟩)
    (ha : ActOK strict E t line a') : BusyOK strict E ⟨t, a' :: rest, line⟩ := by
  refine ⟨h.own, h.filters, fun x hx => ?_, h.nnp⟩
  rcases List.mem_cons.1 hx with rfl | hx
  · exact ha
  · exact h.acts x (List.mem_cons_of_mem _ hx)

/-- One fragment. -/
theorem frag_src {t : Thread} {line : List Ids} (hf : ∀ f ∈ t.filters, FilterOK strict E line f) (hown : ⟨t.pid, t.tid⟩ ∈ line)
    (b : Build) (handler : Bool) (q : Nat → Query) (k : Nat) (f : Filtered) (code : List SockFilter)
    (h : (fragBy b handler t (q k) f).2 = .ok (.ok code)) :
    ∃ ids, code = frag ids f ∧ (Src strict line q [(ids, f)] ∨ strict = true ∧ Blocked t) := by
  by_cases hk : f = .KillSelf
  · subst hk
    simp only [fragBy, filterToBpf_eq] at h
    have fake : enter t (q k).getpid ≠ .executed →
        Src strict line q [(⟨(q k).fail, 0⟩, Filtered.KillSelf)] ∨ strict = true ∧ Blocked t := by
      intro hne
      cases hs : strict with
      | true => exact .inr ⟨rfl, fun env => by rw [← (query_alike hf env (q k)).1]; exact hne⟩
      | false =>
        left
        intro x hx
        rw [List.mem_singleton.1 hx]
        exact ⟨fun _ => .inr ⟨rfl, k, rfl⟩, fun h => by cases h⟩
    split at h
    · cases h
      refine ⟨_, rfl, .inl ?_⟩
      intro x hx
      rw [List.mem_singleton.1 hx]
      exact ⟨fun _ => .inl ⟨_, hown, rfl⟩, fun h => by cases h⟩
    · rename_i he
      cases h
      exact ⟨_, rfl, fake (by rw [he]; simp)⟩
    · rename_i he
      split at h
      · cases h
        exact ⟨_, rfl, fake (by rw [he]; simp)⟩
      · cases h
    · cases h
  · by_cases ht : f = .TkillSelf
    · subst ht
      simp only [fragBy, filterToBpf_eq] at h
      have fake : enter t (q k).gettid ≠ .executed →
          Src strict line q [(⟨0, (q k).fail⟩, Filtered.TkillSelf)] ∨ strict = true ∧ Blocked t := by
        intro hne
        cases hs : strict with
        | true => exact .inr ⟨rfl, fun env => by rw [← (query_alike hf env (q k)).2]; exact hne⟩
        | false =>
          left
          intro x hx
          rw [List.mem_singleton.1 hx]
          exact ⟨fun h => (by cases h), fun _ => .inr ⟨rfl, k, rfl⟩⟩
      split at h
      · cases h
        refine ⟨_, rfl, .inl ?_⟩
        intro x hx
        rw [List.mem_singleton.1 hx]
        exact ⟨fun h => (by cases h), fun _ => .inl ⟨_, hown, rfl⟩⟩
      · rename_i he
        cases h
        exact ⟨_, rfl, fake (by rw [he]; simp)⟩
      · rename_i he
        split at h
        · cases h
          exact ⟨_, rfl, fake (by rw [he]; simp)⟩
        · cases h
      · cases h
    · refine ⟨⟨0, 0⟩, ?_, .inl ?_⟩
      · have : (fragBy b handler t (q k) f).2 = .ok (.ok (frag ⟨0, 0⟩ f)) := by
          cases f <;> first | exact absurd rfl hk | exact absurd rfl ht | (simp only [fragBy, filterToBpf_eq]; done)
        rw [this] at h
        cases h
        rfl
      · intro x hx
        rw [List.mem_singleton.1 hx]
        exact ⟨fun h => absurd h hk, fun h => absurd h ht⟩

theorem checkRet_none {s : Nat} {r : CallRes} (h : checkRet s r = none) : ∃ v : Int, r = .ret v ∧ v % 2 ^ 32 = 0 := by
  cases r with
  | dead o => cases h
  | ret v => exact ⟨v, rfl, (checkRet_ok_iff s v).1 h⟩

theorem mixProg_parts (l : List (Ids × Filtered)) (v : BitVec 32) (hd ft : List SockFilter) (h1 : hd = header)
    (h2 : ft = [⟨0x6, 0, 0, v⟩]) : ([hd] ++ l.map (fun x => frag x.1 x.2) ++ [ft]).flatten = mixProg l v := by
  subst h1 h2
  simp [mixProg, mixBody]

theorem next_ok (hE : strict = true → ∀ q ps v, E q ps v → ¬ Between v) {t : Thread} {a : Act} {rest : List Act} {line : List Ids}
    (h : BusyOK strict E ⟨t, a :: rest, line⟩) :
    (∀ t' a', a.next t = (t', .inl a') → BusyOK strict E ⟨t', a' :: rest, line⟩) ∧
    (∀ t' r, a.next t = (t', .inr r) → BusyOK strict E ⟨t', rest, line⟩) := by
  obtain ⟨hEa, hph⟩ := h.acts a (by simp)
  unfold Act.next
  cases hp : a.phase with
  | start =>
    simp only [mapM_filters]
    refine ⟨?_, fun t' r h' => by simp at h'⟩
    rintro t' a' h'
    simp only [Prod.mk.injEq, Sum.inl.injEq] at h'
    obtain ⟨rfl, rfl⟩ := h'
    exact h.swap ⟨hEa, [], rfl, rfl, .inl (fun x hx => by simp at hx)⟩
  | making k todo codes =>
    rw [hp] at hph
    obtain ⟨l, hc, hl, hsrc⟩ := hph
    cases todo with
    | cons f todo =>
      simp only
      cases hfr : (fragBy a.b a.env.handler t (a.q k) f).2 with
      | error o => exact ⟨fun t' a' h' => by simp at h', fun t' r h' => by simp at h'; rw [← h'.1]; exact h.rest⟩
      | ok r0 =>
        cases r0 with
        | err e => exact ⟨fun t' a' h' => by simp at h', fun t' r h' => by simp at h'; rw [← h'.1]; exact h.rest⟩
        | panic => exact ⟨fun t' a' h' => by simp at h', fun t' r h' => by simp at h'; rw [← h'.1]; exact h.rest⟩
        | ok code =>
          refine ⟨?_, fun t' r h' => by simp at h'⟩
          rintro t' a' h'
          simp only [Prod.mk.injEq, Sum.inl.injEq] at h'
          obtain ⟨rfl, rfl⟩ := h'
          obtain ⟨ids, hcode, hs⟩ := frag_src h.filters h.own _ _ _ _ _ _ hfr
          refine h.swap ⟨hEa, l ++ [(ids, f)], by simp [hc, hcode], by simpa using hl, ?_⟩
          rcases hsrc with g1 | g1
          · rcases hs with g2 | g2
            · left
              intro x hx
              rcases List.mem_append.1 hx with hx | hx
              · exact g1 x hx
              · exact g2 x hx
            · exact .inr g2
          · exact .inr g1
    | nil =>
      simp only [bpfHeader_eq, bpfFooter_eq]
      obtain ⟨f1, f2, f3, f4⟩ := nnp_fields (a.env.onTrap a.env.trapRet.1) t (recNnp a.env) a.env.nnpFault
      have hprog := mixProg_parts l a.v.toU32 _ _ rfl rfl
      rw [hc]
      cases hck : checkRet a.env.errno.1 (syscall (a.env.onTrap a.env.trapRet.1) t (recNnp a.env) (setNnp a.env.nnpFault)).2 with
      | some e =>
        refine ⟨fun t' a' h' => by simp at h', fun t' r h' => ?_⟩
        simp only [Prod.mk.injEq] at h'
        rw [← h'.1]
        exact (h.rest).lift f1 f2 f3 f4
      | none =>
        refine ⟨fun t' a' h' => ?_, fun t' r h' => by simp at h'⟩
        simp only [Prod.mk.injEq, Sum.inl.injEq] at h'
        obtain ⟨rfl, rfl⟩ := h'
        refine BusyOK.swap (a := a) (h.lift f1 f2 f3 f4) ?_
        refine ⟨hEa, l, hprog, by simpa using hl, hsrc.imp id (fun ⟨x, y⟩ => ⟨x, blocked_same f3 y⟩), fun hs => ?_⟩
        by_cases he : enter t (recNnp a.env) = .executed
        · left
          simp only [syscall, he] at hck ⊢
          unfold setNnp at hck ⊢
          cases hn : a.env.nnpFault with
          | some e => rw [hn] at hck; simp only [checkRet_err] at hck; cases hck
          | none => rfl
        · right
          refine blocked_same f3 fun env => ?_
          rw [← own_alike h.filters a.env env _ (.inr (.inr (.inl rfl)))]
          exact he
  | armed prog =>
    rw [hp] at hph
    obtain ⟨l, rfl, hl, hsrc, hnnp⟩ := hph
    simp only
    by_cases he : enter t (recSeccomp a.env) = .executed
    · have hnb : ¬ Blocked t := fun hb => hb a.env (by
        rw [← own_alike h.filters a.env a.env _ (.inr (.inr (.inr rfl)))]; exact he)
      have hsrc' : Src strict line a.q l := by
        rcases hsrc with g | ⟨_, g⟩
        · exact g
        · exact absurd g hnb
      simp only [syscall, he]
      have done : ∀ t', t' = t ∨ (t' = { t with filters := mixProg l a.v.toU32 :: t.filters } ) → BusyOK strict E ⟨t', rest, line⟩ := by
        rintro t' (rfl | rfl)
        · exact h.rest
        · refine ⟨h.own, ?_, ?_, ?_⟩
          · intro f hf
            rcases List.mem_cons.1 hf with rfl | hf
            · exact ⟨l, a.ps, a.v, a.q, rfl, hl, hEa, hsrc'⟩
            · exact h.filters f hf
          · intro a' ha'
            refine (h.acts a' (List.mem_cons_of_mem _ ha')).mono (fun _ hi => hi) (fun hs hb => ?_) id
            exact blocked_grows (fun f hf => (h.filters f hf).sane (hE hs)) (List.suffix_cons _ _) hb
          · intro hs _
            exact (hnnp hs).resolve_right hnb
      have hcase : (setSeccomp a.env.seccompFault ((mixProg l a.v.toU32).take ((mixProg l a.v.toU32).length % 2 ^ 16)) t).1 = t ∨
          (setSeccomp a.env.seccompFault ((mixProg l a.v.toU32).take ((mixProg l a.v.toU32).length % 2 ^ 16)) t).1 =
            { t with filters := mixProg l a.v.toU32 :: t.filters } := by
        rcases setSeccomp_mix a.env.seccompFault l a.v.toU32 t with ⟨g, _⟩ | ⟨g, _⟩
        · right; rw [g]
        · exact .inl g
      have hd := done _ hcase
      split
      · exact ⟨fun t' a' h' => by simp at h', fun t' r h' => by
          simp only [Prod.mk.injEq] at h'; rw [← h'.1]; exact hd⟩
      · exact ⟨fun t' a' h' => by simp at h', fun t' r h' => by
          simp only [Prod.mk.injEq] at h'; rw [← h'.1]; exact hd⟩
    · have hsame : ∀ h' body, (syscall h' t (recSeccomp a.env) body).1 = t := by
        intro h' body
        unfold syscall
        split
        · rename_i hx; exact absurd hx he
        · rfl
        · split <;> rfl
        · rfl
      split
      · exact ⟨fun t' a' h' => by simp at h', fun t' r h' => by
          simp only [Prod.mk.injEq, hsame] at h'; rw [← h'.1]; exact h.rest⟩
      · exact ⟨fun t' a' h' => by simp at h', fun t' r h' => by
          simp only [Prod.mk.injEq, hsame] at h'; rw [← h'.1]; exact h.rest⟩

/-! ## one move -/

theorem withThreads_get {w : Wild} {s : System} {j : Nat} {sl : Busy} (h : (w.withThreads s)[j]? = some sl) :
    ∃ sl0 t, w[j]? = some sl0 ∧ s[j]? = some t ∧ sl = { sl0 with thread := t } := by
  unfold Wild.withThreads at h
  rw [List.getElem?_zipWith] at h
  cases h1 : w[j]? with
  | none => rw [h1] at h; simp at h
  | some sl0 =>
    cases h2 : s[j]? with
    | none => rw [h1, h2] at h; simp at h
    | some t =>
      rw [h1, h2] at h
      simp only [Option.some.injEq] at h
      exact ⟨sl0, t, rfl, rfl, h.symm⟩

theorem on_same (s : System) (i : Nat) (f : Thread → Thread × Option Outcome)
    (hf : ∀ t, (f t).1.pid = t.pid ∧ (f t).1.tid = t.tid ∧ (f t).1.filters = t.filters ∧ (t.nnp = true → (f t).1.nnp = true))
    (j : Nat) (t' : Thread) (h : (s.on i f)[j]? = some t') :
    ∃ t, s[j]? = some t ∧ t'.pid = t.pid ∧ t'.tid = t.tid ∧ t'.filters = t.filters ∧ (t.nnp = true → t'.nnp = true) := by
  have hset : ∀ t u, s[i]? = some t → (s.set i (f t).1)[j]? = some u →
      ∃ t, s[j]? = some t ∧ u.pid = t.pid ∧ u.tid = t.tid ∧ u.filters = t.filters ∧ (t.nnp = true → u.nnp = true) := by
    intro t u hi hu
    rw [List.getElem?_set] at hu
    split at hu
    · rename_i hij
      subst hij
      split at hu
      · cases hu
        exact ⟨t, hi, hf t⟩
      · cases hu
    · exact ⟨u, hu, rfl, rfl, rfl, id⟩
  unfold System.on at h
  split at h
  · rename_i t hi
    split at h
    · split at h
      · obtain ⟨u, h1, h2, h3, h4, h5, _⟩ := reap_get _ _ _ _ _ _ h
        obtain ⟨t0, g1, g2, g3, g4, g5⟩ := hset t u hi h1
        exact ⟨t0, g1, h4.trans g2, h5.trans g3, h2.trans g4, fun x => by rw [h3]; exact g5 x⟩
      · exact hset t t' hi h
    · exact ⟨t', h, rfl, rfl, rfl, id⟩
  · exact ⟨t', h, rfl, rfl, rfl, id⟩

theorem op_same (s : System) (op : Op) (h1 : ∀ i b env ps v, op ≠ .pledge i b env ps v)
    (h2 : ∀ i d h pid tid, op ≠ .spawn i d h pid tid) (h3 : ∀ i d h f p, op ≠ .setSeccomp i d h f p) (j : Nat) (t' : Thread)
    (h : (s.step op)[j]? = some t') :
    ∃ t, s[j]? = some t ∧ t'.pid = t.pid ∧ t'.tid = t.tid ∧ t'.filters = t.filters ∧ (t.nnp = true → t'.nnp = true) := by
  cases op with
  | pledge i b env ps v => exact absurd rfl (h1 i b env ps v)
  | spawn i d h' pid tid => exact absurd rfl (h2 i d h' pid tid)
  | call i d h' => exact on_same s i _ (fun t => ⟨rfl, rfl, rfl, id⟩) j t' h
  | setNnp i d h' fault => exact on_same s i _ (fun t => nnp_fields _ _ _ _) j t' h
  | setSeccomp i d h' f p => exact absurd rfl (h3 i d h' f p)
  | cred i a => exact on_same s i (fun t => ({ t with admin := a }, none)) (fun t => ⟨rfl, rfl, rfl, id⟩) j t' h
  | crash i w => exact on_same s i (fun t => (t, some (if w then .killProcess else .killThread))) (fun t => ⟨rfl, rfl, rfl, id⟩) j t' h

def WildOK (strict : Bool) (E : (Nat → Query) → List Promise → SeccompReturn → Prop) (w : Wild) : Prop :=
  ∀ sl ∈ w, BusyOK strict E sl

theorem threads_get {w : Wild} {j : Nat} {sl : Busy} (h : w[j]? = some sl) : w.threads[j]? = some sl.thread := by
  unfold Wild.threads
  rw [List.getElem?_map, h]
  rfl

theorem withThreads_ok {w : Wild} {s : System} (h : WildOK strict E w)
    (hs : ∀ (j : Nat) (t' : Thread), s[j]? = some t' → ∃ t : Thread, w.threads[j]? = some t ∧ t'.pid = t.pid ∧ t'.tid = t.tid ∧ t'.filters = t.filters ∧
      (t.nnp = true → t'.nnp = true)) : WildOK strict E (w.withThreads s) := by
  intro sl hsl
  obtain ⟨j, hj⟩ := List.getElem?_of_mem hsl
  obtain ⟨sl0, t', h1, h2, rfl⟩ := withThreads_get hj
  obtain ⟨t, g1, g2, g3, g4, g5⟩ := hs j t' h2
  rw [threads_get h1] at g1
  cases g1
  exact (h sl0 (List.mem_of_getElem? h1)).lift g2 g3 g4 g5

theorem set_ok {w : Wild} {i : Nat} {sl : Busy} (h : WildOK strict E w) (hs : BusyOK strict E sl) : WildOK strict E (w.set i sl) := by
  intro x hx
  rcases List.mem_or_eq_of_mem_set hx with hx | rfl
  · exact h x hx
  · exact hs

theorem step_ok (hE : strict = true → ∀ q ps v, E q ps v → ¬ Between v) {w : Wild} (h : WildOK strict E w) (m : Move)
    (hm : ∀ i b env q ps v, m = .enter i b env q ps v → E q ps v) (hl : ∀ i d h f p, m ≠ .other (.setSeccomp i d h f p)) :
    WildOK strict E (w.step m) := by
  cases m with
  | enter i b env q ps v =>
    simp only [Wild.step]
    split
    · rename_i sl hi
      have hsl := h sl (List.mem_of_getElem? hi)
      split
      · refine set_ok h ⟨hsl.own, hsl.filters, fun a ha => ?_, hsl.nnp⟩
        rcases List.mem_cons.1 ha with rfl | ha
        · exact ⟨hm i b env q ps v rfl, trivial⟩
        · exact hsl.acts a ha
      · exact h
    · exact h
  | go i =>
    simp only [Wild.step]
    split
    · rename_i t a rest line hi
      have hsl := h _ (List.mem_of_getElem? hi)
      split
      · obtain ⟨n1, n2⟩ := next_ok hE hsl
        split
        · rename_i t' a' hn
          exact set_ok h (n1 t' a' hn)
        · rename_i t' r hn
          have hw := set_ok (i := i) h (n2 t' r hn)
          split
          · refine withThreads_ok hw fun j u hu => ?_
            obtain ⟨u0, g1, g2, g3, g4, g5, _⟩ := reap_get _ _ _ _ _ _ hu
            exact ⟨u0, g1, g4, g5, g2, by rw [g3]; exact id⟩
          · exact hw
      · exact h
    · exact h
  | leave i =>
    simp only [Wild.step]
    split
    · rename_i sl hi
      have hsl := h sl (List.mem_of_getElem? hi)
      split
      · exact set_ok h ⟨hsl.own, hsl.filters, fun a ha => hsl.acts a (List.mem_of_mem_tail ha), hsl.nnp⟩
      · exact h
    · exact h
  | fork i d h' pid tid copies =>
    simp only [Wild.step]
    split
    · rename_i sl hi
      have hsl := h sl (List.mem_of_getElem? hi)
      split
      · intro x hx
        rcases List.mem_append.1 hx with hx | hx
        · exact h x hx
        · rw [List.mem_singleton.1 hx]
          have hmono : ∀ j ∈ sl.line, j ∈ (⟨pid, tid⟩ : Ids) :: sl.line := fun j hj => List.mem_cons_of_mem _ hj
          refine ⟨by simp, fun f hf => (hsl.filters f hf).mono hmono, fun a ha => ?_, hsl.nnp⟩
          refine ActOK.mono (t := sl.thread) (hsl.acts a ?_) hmono (fun _ hb => blocked_same (t := sl.thread) rfl hb) id
          cases copies
          · simp at ha
          · exact ha
      · exact withThreads_ok h fun j t' ht => op_same _ _ (by simp) (by simp) (by simp) j t' ht
    · exact h
  | other op =>
    have key : (∀ i b env ps v, op ≠ .pledge i b env ps v) → (∀ i d h pid tid, op ≠ .spawn i d h pid tid) →
        WildOK strict E (w.withThreads (w.threads.step op)) := fun h1 h2 =>
      withThreads_ok h fun j t' ht => op_same _ _ h1 h2 (fun i d h' f p he => hl i d h' f p (by rw [he])) j t' ht
    cases op with
    | pledge i b env ps v => exact h
    | spawn i d h' pid tid => exact h
    | _ => exact key (by simp) (by simp)

theorem run_ok (hE : strict = true → ∀ q ps v, E q ps v → ¬ Between v) (ms : List Move) {w : Wild} (h : WildOK strict E w)
    (hm : ∀ i b env q ps v, .enter i b env q ps v ∈ ms → E q ps v) (hl : OnlyLibrary ms) : WildOK strict E (w.run ms) := by
  induction ms generalizing w with
  | nil => exact h
  | cons m ms ih =>
    refine ih (step_ok hE h m (fun i b env q ps v he => hm i b env q ps v (by rw [he]; simp)) ?_)
      (fun i b env q ps v he => hm i b env q ps v (List.mem_cons_of_mem _ he)) (fun x hx => hl x (List.mem_cons_of_mem _ hx))
    exact hl m (by simp)

theorem quiet_ok (s : System) (hs : Fresh s) : WildOK strict E (quiet s) := by
  intro sl hsl
  obtain ⟨t, ht, rfl⟩ := List.mem_map.1 hsl
  have := hs t ht
  exact ⟨by simp, by simp [this], by simp, by simp [this]⟩

/-! ## filters only grow -/

theorem next_grown (a : Act) (t : Thread) : Grown t (a.next t).1 := by
  unfold Act.next
  split
  · split <;> exact .refl t
  · split <;> exact .refl t
  · split
    · exact .refl t
    · exact .refl t
    · split
      · exact .refl t
      · exact .refl t
      · dsimp only
        split <;> exact syscall_grown _ _ _ _ (setNnp_grown _)
  · dsimp only
    split <;> exact syscall_grown _ _ _ _ (setSeccomp_grown _ _)

theorem withThreads_grown {w : Wild} {s : System} (hl : s.length = w.length)
    (hs : ∀ (j : Nat) (t' : Thread), s[j]? = some t' → ∃ t, w.threads[j]? = some t ∧ Grown t t') :
    (w.withThreads s).length = w.length ∧
    ∀ (j : Nat) (sl' : Busy), (w.withThreads s)[j]? = some sl' → ∃ sl, w[j]? = some sl ∧ Grown sl.thread sl'.thread := by
  refine ⟨by simp [Wild.withThreads, hl], fun j sl' h => ?_⟩
  obtain ⟨sl0, t', h1, h2, rfl⟩ := withThreads_get h
  obtain ⟨t, g1, g2⟩ := hs j t' h2
  rw [threads_get h1] at g1
  cases g1
  exact ⟨sl0, h1, g2⟩

theorem set_grown {w : Wild} {i : Nat} {sl sl' : Busy} (hi : w[i]? = some sl) (hg : Grown sl.thread sl'.thread) :
    (w.set i sl').length = w.length ∧
    ∀ (j : Nat) (x : Busy), (w.set i sl')[j]? = some x → ∃ y, w[j]? = some y ∧ Grown y.thread x.thread := by
  refine ⟨by simp, fun j x h => ?_⟩
  rw [List.getElem?_set] at h
  split at h
  · rename_i hij
    subst hij
    split at h
    · cases h; exact ⟨sl, hi, hg⟩
    · cases h
  · exact ⟨x, h, .refl _⟩

theorem threads_length (w : Wild) : w.threads.length = w.length := by simp [Wild.threads]

theorem wild_step_cases (w : Wild) (m : Move) :
    ((w.step m).length = w.length ∧
      ∀ (j : Nat) (sl' : Busy), (w.step m)[j]? = some sl' → ∃ sl, w[j]? = some sl ∧ Grown sl.thread sl'.thread) ∨
    (∃ i d h pid tid c sl child, m = .fork i d h pid tid c ∧ w[i]? = some sl ∧ w.step m = w ++ [child] ∧
      Grown sl.thread child.thread) := by
  have same : w.length = w.length ∧ ∀ (j : Nat) (sl' : Busy), w[j]? = some sl' → ∃ sl, w[j]? = some sl ∧ Grown sl.thread sl'.thread :=
    ⟨rfl, fun j sl h => ⟨sl, h, .refl _⟩⟩
  have ops : ∀ op, (∀ i d h pid tid, op ≠ Op.spawn i d h pid tid) →
      (w.withThreads (w.threads.step op)).length = w.length ∧
      ∀ (j : Nat) (sl' : Busy), (w.withThreads (w.threads.step op))[j]? = some sl' → ∃ sl, w[j]? = some sl ∧ Grown sl.thread sl'.thread := by
    intro op hop
    rcases step_cases w.threads op with ⟨h1, h2⟩ | ⟨i, d, h, pid, tid, _, he, _⟩
    · exact withThreads_grown (h1.trans (threads_length w)) h2
    · exact absurd he (hop i d h pid tid)
  cases m with
  | enter i b env q ps v =>
    left
    simp only [Wild.step]
    split
    · rename_i sl hi
      split
      · exact set_grown hi (.refl _)
      · exact same
    · exact same
  | go i =>
    left
    simp only [Wild.step]
    split
    · rename_i t a rest line hi
      split
      · have hg := next_grown a t
        split
        · rename_i t' a' hn
          rw [hn] at hg
          exact set_grown hi hg
        · rename_i t' r hn
          rw [hn] at hg
          have hs := set_grown (sl' := ⟨t', rest, line⟩) hi hg
          split
          · rename_i o _
            have hr := withThreads_grown (w := w.set i ⟨t', rest, line⟩)
              (s := reap (Wild.threads (w.set i ⟨t', rest, line⟩)) i t.pid o) (by rw [reap_length, threads_length])
              (fun j u hu => by
                obtain ⟨u0, g1, g2, g3, _⟩ := reap_get _ _ _ _ _ _ hu
                exact ⟨u0, g1, by rw [g2]; exact List.suffix_refl _, by rw [g3]; exact id⟩)
            refine ⟨hr.1.trans hs.1, fun j x hx => ?_⟩
            obtain ⟨y, h1, h2⟩ := hr.2 j x hx
            obtain ⟨z, h3, h4⟩ := hs.2 j y h1
            exact ⟨z, h3, h4.trans h2⟩
          · exact hs
      · exact same
    · exact same
  | leave i =>
    left
    simp only [Wild.step]
    split
    · rename_i sl hi
      split
      · exact set_grown hi (.refl _)
      · exact same
    · exact same
  | fork i d h pid tid c =>
    simp only [Wild.step]
    cases hi : w[i]? with
    | none => exact .inl same
    | some sl =>
      simp only
      split
      · exact .inr ⟨i, d, h, pid, tid, c, sl, _, rfl, hi, rfl, ⟨List.suffix_refl _, id⟩⟩
      · exact .inl (ops _ (by simp))
  | other op =>
    left
    cases op with
    | pledge i b env ps v => exact same
    | spawn i d h pid tid => exact same
    | _ => exact ops _ (by simp)

theorem scions_grown (ms : List Move) (w : Wild) (own : List Nat) (t : Thread)
    (hown : ∀ j ∈ own, ∀ sl, w[j]? = some sl → Grown t sl.thread) (hlt : ∀ j ∈ own, j < w.length) :
    ∀ j ∈ scions w ms own, ∀ sl, (w.run ms)[j]? = some sl → Grown t sl.thread := by
  induction ms generalizing w own with
  | nil => exact hown
  | cons m ms ih =>
    have hrun : w.run (m :: ms) = (w.step m).run ms := rfl
    rw [hrun]
    rcases wild_step_cases w m with ⟨hl, hg⟩ | ⟨i, d, h, pid, tid, c, sl0, child, rfl, hi, hs, hg⟩
    · have hsame : scions w (m :: ms) own = scions (w.step m) ms own := by
        simp only [scions]
        split
        · rw [if_neg (by omega)]
        · rfl
      rw [hsame]
      refine ih (w.step m) own ?_ (by rw [hl]; exact hlt)
      intro j hj u hu
      obtain ⟨t0, h0, h1⟩ := hg j u hu
      exact (hown j hj t0 h0).trans h1
    · simp only [scions]
      have hlen : (w.step (.fork i d h pid tid c)).length = w.length + 1 := by rw [hs]; simp
      apply ih
      · intro j hj u hu
        rw [hs] at hu
        by_cases hjl : j < w.length
        · rw [List.getElem?_append_left hjl] at hu
          split at hj
          · simp only [List.mem_cons] at hj
            rcases hj with rfl | hj
            · omega
            · exact hown j hj u hu
          · exact hown j hj u hu
        · split at hj
          · rename_i hc
            simp only [List.mem_cons] at hj
            rcases hj with rfl | hj
            · rw [List.getElem?_append_right (Nat.le_refl _)] at hu
              simp at hu
              subst hu
              exact (hown i hc.1 sl0 hi).trans hg
            · exact absurd (hlt j hj) hjl
          · exact absurd (hlt j hj) hjl
      · intro j hj
        rw [hlen]
        split at hj
        · simp only [List.mem_cons] at hj
          rcases hj with rfl | hj
          · omega
          · have := hlt j hj; omega
        · have := hlt j hj; omega

end Pledge
