import Verif.Props.Rules

/-!
# C73: which promises are redundant
-/
set_option autoImplicit false

namespace Props
open Pledge Bpfvm Spec

/-- Adding promise `p` to the list `ps` allows no call that `ps` does not allow already. -/
def AddsNothing (p : Promise) (ps : List Promise) : Prop := ∀ ids d, Allows ids (p :: ps) d → Allows ids ps d

theorem permits_allows {ids : Ids} {ps : List Promise} {d : SeccompData} {q : Promise} (ha : d.arch = X86_64) (hq : q ∈ ps)
    (h : Permits ids q d) : Allows ids ps d := (allows_iff _ _ _).2 ⟨ha, .inr ⟨q, hq, h⟩⟩

/-- It is enough to look at what `p` permits. -/
theorem addsNothing_of {p : Promise} {ps : List Promise}
    (h : ∀ ids d, d.arch = X86_64 → Permits ids p d → Allows ids ps d) : AddsNothing p ps := by
  intro ids d ha
  obtain ⟨h1, h2 | ⟨q, hq, h2⟩⟩ := (allows_iff _ _ _).1 ha
  · exact (allows_iff _ _ _).2 ⟨h1, .inl h2⟩
  · rcases List.mem_cons.1 hq with rfl | hq
    · exact h ids d h1 h2
    · exact permits_allows h1 hq h2

/-- A call that only `p` permits with any arguments shows that `p` adds something. -/
theorem essential_free {p : Promise} {ps : List Promise} (n : Nat) (hf : freeOf n = [p]) (hr : n ∉ argNumbers) (h60 : n ≠ 60)
    (hn : n < 2 ^ 32) {ids : Ids} (h : ∀ d, Allows ids (p :: ps) d → Allows ids ps d) : p ∈ ps := by
  have hc : IsCall (mkCall n []) n := ⟨rfl, by simp [mkCall, Nat.mod_eq_of_lt hn]⟩
  have := h (mkCall n []) ((allows_plain hc _ hf hr h60).2 ⟨p, by simp, by simp⟩)
  obtain ⟨q, h1, h2⟩ := (allows_plain hc _ hf hr h60).1 this
  rw [List.mem_singleton] at h2
  exact h2 ▸ h1

/-- The promises whose every call some other promises allow too, with these other promises. -/
def Covered (ps : List Promise) : Promise → Prop
  | .Default => True
  | .VmInfo => .StdIO ∈ ps
  | .RecvFd => .SendFd ∈ ps
  | .SendFd => .RecvFd ∈ ps
  | .TmpPath => .CPath ∈ ps ∧ (.RPath ∈ ps ∨ .WPath ∈ ps)
  | .Dns => .StdIO ∈ ps ∧ .Inet ∈ ps ∧ (.RPath ∈ ps ∨ .WPath ∈ ps ∧ .CPath ∈ ps)
  | _ => False

theorem free_other {p : Promise} {n : Nat} (h : Free n p) (Q : List Promise → Bool)
    (hQ : ∀ r ∈ freeTable, p ∈ r.2.2 → Q r.2.2 = true) : ∃ L, Q L = true ∧ ∀ q ∈ L, Free n q := by
  obtain ⟨name, L, hm, hp⟩ := h
  exact ⟨L, hQ _ hm hp, fun q hq => ⟨name, L, hm, hq⟩⟩

theorem rule_promise {ids : Ids} {d : SeccompData} {p : Promise} (h : ArgRule ids d p) :
    p ∈ [.StdIO, .RPath, .WPath, .CPath, .FLock, .FAttr, .Inet, .Unix, .Dns, .Tty, .Proc, .ProtExec] := by
  have sub : ∀ L : List Promise, p ∈ L →
      (∀ q ∈ L, q ∈ [.StdIO, .RPath, .WPath, .CPath, .FLock, .FAttr, .Inet, .Unix, .Dns, .Tty, .Proc, .ProtExec]) →
      p ∈ [.StdIO, .RPath, .WPath, .CPath, .FLock, .FAttr, .Inet, .Unix, .Dns, .Tty, .Proc, .ProtExec] := fun _ h h' => h' p h
  cases h with
  | openat_read _ hm _ _ _ => exact sub _ hm (by decide)
  | chmod _ hm _ _ => exact sub _ hm (by decide)
  | fchmodat _ hm _ _ => exact sub _ hm (by decide)
  | socket_inet _ hm _ _ _ _ => exact sub _ hm (by decide)
  | getsockopt _ hm _ _ _ => exact sub _ hm (by decide)
  | getsockopt_again _ hm _ _ _ => exact sub _ hm (by decide)
  | _ => decide

theorem covered_adds_nothing {p : Promise} {ps : List Promise} (h : Covered ps p) : AddsNothing p ps := by
  refine addsNothing_of fun ids d ha hp => ?_
  cases p with
  | Default => exact (allows_iff _ _ _).2 ⟨ha, .inl hp⟩
  | VmInfo =>
    rcases hp with hp | hp
    · obtain ⟨L, hL, hq⟩ := free_other hp (fun L => L.contains .StdIO) (by decide +kernel)
      exact permits_allows ha h (.inl (hq _ (by simpa using hL)))
    · exact absurd (rule_promise hp) (by decide)
  | RecvFd =>
    rcases hp with hp | hp
    · obtain ⟨L, hL, hq⟩ := free_other hp (fun L => L.contains .SendFd) (by decide +kernel)
      exact permits_allows ha h (.inl (hq _ (by simpa using hL)))
    · exact absurd (rule_promise hp) (by decide)
  | SendFd =>
    rcases hp with hp | hp
    · obtain ⟨L, hL, hq⟩ := free_other hp (fun L => L.contains .RecvFd) (by decide +kernel)
      exact permits_allows ha h (.inl (hq _ (by simpa using hL)))
    · exact absurd (rule_promise hp) (by decide)
  | TmpPath =>
    rcases hp with hp | hp
    · obtain ⟨L, hL, hq⟩ := free_other hp (fun L => L.contains .CPath || L.contains .RPath && L.contains .WPath) (by decide +kernel)
      simp only [Bool.or_eq_true, Bool.and_eq_true, List.contains_eq_mem, decide_eq_true_eq] at hL
      rcases hL with hL | ⟨h1, h2⟩
      · exact permits_allows ha h.1 (.inl (hq _ hL))
      · exact h.2.elim (fun hr => permits_allows ha hr (.inl (hq _ h1))) (fun hw => permits_allows ha hw (.inl (hq _ h2)))
    · exact absurd (rule_promise hp) (by decide)
  | Dns =>
    obtain ⟨hs, hi, hrw⟩ := h
    rcases hp with hp | hp
    · obtain ⟨L, hL, hq⟩ := free_other hp
        (fun L => L.contains .StdIO || L.contains .Inet || L.contains .RPath && L.contains .WPath) (by decide +kernel)
      simp only [Bool.or_eq_true, Bool.and_eq_true, List.contains_eq_mem, decide_eq_true_eq] at hL
      rcases hL with (hL | hL) | ⟨h1, h2⟩
      · exact permits_allows ha hs (.inl (hq _ hL))
      · exact permits_allows ha hi (.inl (hq _ hL))
      · exact hrw.elim (fun hr => permits_allows ha hr (.inl (hq _ h1))) (fun hw => permits_allows ha hw.1 (.inl (hq _ h2)))
    · cases hp with
      | openat_read _ hm h1 h2 h3 =>
        rcases hrw with hr | ⟨_, hc⟩
        · exact permits_allows ha hr (.inr (.openat_read _ (by decide) h1 h2 h3))
        · exact permits_allows ha hc (.inr (.openat_cpath h1 (.inl fun i hi => h3 i (by simp at hi ⊢; omega))))
      | socket_inet _ hm h1 h2 h3 h4 => exact permits_allows ha hi (.inr (.socket_inet _ (by decide) h1 h2 h3 h4))
      | chmod _ hm _ _ => exact absurd hm (by decide)
      | fchmodat _ hm _ _ => exact absurd hm (by decide)
      | getsockopt _ hm _ _ _ => exact absurd hm (by decide)
      | getsockopt_again _ hm _ _ _ => exact absurd hm (by decide)
  | _ => exact h.elim

/-- A promise that adds nothing, for a thread with certain ids, is in the list or covered by it. -/
theorem essential {ids : Ids} {p : Promise} {ps : List Promise} (h : ∀ d, Allows ids (p :: ps) d → Allows ids ps d) :
    p ∈ ps ∨ Covered ps p := by
  cases p with
  | Default => exact .inr trivial
  | StdIO => exact .inl (essential_free 1 (by decide +kernel) (by decide) (by decide) (by decide) h)
  | RPath => exact .inl (essential_free 78 (by decide +kernel) (by decide) (by decide) (by decide) h)
  | WPath => exact .inl (essential_free 76 (by decide +kernel) (by decide) (by decide) (by decide) h)
  | CPath => exact .inl (essential_free 82 (by decide +kernel) (by decide) (by decide) (by decide) h)
  | DPath => exact .inl (essential_free 133 (by decide +kernel) (by decide) (by decide) (by decide) h)
  | FLock => exact .inl (essential_free 73 (by decide +kernel) (by decide) (by decide) (by decide) h)
  | FAttr => exact .inl (essential_free 132 (by decide +kernel) (by decide) (by decide) (by decide) h)
  | Proc => exact .inl (essential_free 57 (by decide +kernel) (by decide) (by decide) (by decide) h)
  | Id => exact .inl (essential_free 105 (by decide +kernel) (by decide) (by decide) (by decide) h)
  | Chown => exact .inl (essential_free 92 (by decide +kernel) (by decide) (by decide) (by decide) h)
  | SetTime => exact .inl (essential_free 164 (by decide +kernel) (by decide) (by decide) (by decide) h)
  | Exec => exact .inl (essential_free 59 (by decide +kernel) (by decide) (by decide) (by decide) h)
  | Unveil => exact .inl (essential_free 444 (by decide +kernel) (by decide) (by decide) (by decide) h)
  | Inet =>
    have hc : IsCall (mkCall 16 [0, 0x8905]) 16 := ⟨rfl, rfl⟩
    have h1 := (C72_ioctl ids ps _ hc).1 (h _ ((C72_ioctl ids (.Inet :: ps) _ hc).2 (.inr (.inl ⟨by simp, rfl⟩))))
    rcases h1 with ⟨_, h1⟩ | ⟨h1, _⟩ | ⟨_, h1⟩
    · exact absurd h1 (by decide)
    · exact .inl h1
    · exact absurd h1 (by decide)
  | Tty =>
    have hc : IsCall (mkCall 16 [0, 0x5401]) 16 := ⟨rfl, rfl⟩
    have h1 := (C72_ioctl ids ps _ hc).1
      (h _ ((C72_ioctl ids (.Tty :: ps) _ hc).2 (.inr (.inr ⟨by simp, by decide⟩))))
    rcases h1 with ⟨_, h1⟩ | ⟨_, h1⟩ | ⟨h1, _⟩
    · exact absurd h1 (by decide)
    · exact absurd h1 (by decide)
    · exact .inl h1
  | Unix =>
    have hc : IsCall (mkCall 41 [1, 1, 0]) 41 := ⟨rfl, rfl⟩
    have h1 := (C72_socket ids ps _ hc).1 (h _ ((C72_socket ids (.Unix :: ps) _ hc).2
      ⟨.inl ⟨0, by decide, by decide⟩, .inr ⟨by simp, by decide, by decide⟩⟩))
    rcases h1 with ⟨_, ⟨_, h1, _⟩ | ⟨h1, _⟩⟩
    · exact absurd h1 (by decide)
    · exact .inl h1
  | ProtExec =>
    have hc : IsCall (mkCall 9 [0, 0, 4, 0]) 9 := ⟨rfl, rfl⟩
    have h1 := (C72_mmap ids ps _ hc).1 (h _ ((C72_mmap ids (.ProtExec :: ps) _ hc).2
      (.inr ⟨by simp, by simp only [hasNone]; decide⟩)))
    rcases h1 with ⟨_, h1, _⟩ | ⟨h1, _⟩
    · exact absurd h1 (by decide)
    · exact .inl h1
  | VmInfo =>
    have hc : IsCall (mkCall 24 []) 24 := ⟨rfl, rfl⟩
    have hf : freeOf 24 = [.StdIO, .VmInfo] := by decide +kernel
    have h1 := (allows_plain hc _ hf (by decide) (by decide)).1
      (h _ ((allows_plain hc _ hf (by decide) (by decide)).2 ⟨.VmInfo, by simp, by simp⟩))
    rw [some_in, some_in, some_nil, or_false] at h1
    exact h1.elim .inr .inl
  | RecvFd =>
    have hc : IsCall (mkCall 47 []) 47 := ⟨rfl, rfl⟩
    have hf : freeOf 47 = [.RecvFd, .SendFd] := by decide +kernel
    have h1 := (allows_plain hc _ hf (by decide) (by decide)).1
      (h _ ((allows_plain hc _ hf (by decide) (by decide)).2 ⟨.RecvFd, by simp, by simp⟩))
    rw [some_in, some_in, some_nil, or_false] at h1
    exact h1
  | SendFd =>
    have hc : IsCall (mkCall 47 []) 47 := ⟨rfl, rfl⟩
    have hf : freeOf 47 = [.RecvFd, .SendFd] := by decide +kernel
    have h1 := (allows_plain hc _ hf (by decide) (by decide)).1
      (h _ ((allows_plain hc _ hf (by decide) (by decide)).2 ⟨.SendFd, by simp, by simp⟩))
    rw [some_in, some_in, some_nil, or_false] at h1
    exact h1.symm
  | TmpPath =>
    have hc : IsCall (mkCall 87 []) 87 := ⟨rfl, rfl⟩
    have hf : freeOf 87 = [.CPath, .TmpPath] := by decide +kernel
    have h1 := (allows_plain hc _ hf (by decide) (by decide)).1
      (h _ ((allows_plain hc _ hf (by decide) (by decide)).2 ⟨.TmpPath, by simp, by simp⟩))
    rw [some_in, some_in, some_nil, or_false] at h1
    have hc' : IsCall (mkCall 6 []) 6 := ⟨rfl, rfl⟩
    have hf' : freeOf 6 = [.RPath, .WPath, .TmpPath] := by decide +kernel
    have h2 := (allows_plain hc' _ hf' (by decide) (by decide)).1
      (h _ ((allows_plain hc' _ hf' (by decide) (by decide)).2 ⟨.TmpPath, by simp, by simp⟩))
    rw [some_in, some_in, some_in, some_nil, or_false] at h2
    rcases h1 with h1 | h1
    · rcases h2 with h2 | h2 | h2
      · exact .inr ⟨h1, .inl h2⟩
      · exact .inr ⟨h1, .inr h2⟩
      · exact .inl h2
    · exact .inl h1
  | Dns =>
    by_cases hd : Promise.Dns ∈ ps
    · exact .inl hd
    refine .inr ⟨?_, ?_, ?_⟩
    · have hc : IsCall (mkCall 0 []) 0 := ⟨rfl, rfl⟩
      have hf : freeOf 0 = [.StdIO, .Dns] := by decide +kernel
      have h1 := (allows_plain hc _ hf (by decide) (by decide)).1
        (h _ ((allows_plain hc _ hf (by decide) (by decide)).2 ⟨.Dns, by simp, by simp⟩))
      rw [some_in, some_in, some_nil, or_false] at h1
      exact h1.resolve_right hd
    · have hc : IsCall (mkCall 41 [2, 1, 0]) 41 := ⟨rfl, rfl⟩
      have h1 := (C72_socket ids ps _ hc).1 (h _ ((C72_socket ids (.Dns :: ps) _ hc).2
        ⟨.inl ⟨0, by decide, by decide⟩, .inl ⟨by simp, by decide, by decide⟩⟩))
      rcases h1 with ⟨_, ⟨h1, _⟩ | ⟨_, h1, _⟩⟩
      · exact h1.resolve_right hd
      · exact absurd h1 (by decide)
    · have hc : IsCall (mkCall 262 []) 262 := ⟨rfl, rfl⟩
      have hf : freeOf 262 = [.RPath, .WPath, .Dns] := by decide +kernel
      have h1 := (allows_plain hc _ hf (by decide) (by decide)).1
        (h _ ((allows_plain hc _ hf (by decide) (by decide)).2 ⟨.Dns, by simp, by simp⟩))
      rw [some_in, some_in, some_in, some_nil, or_false] at h1
      have hc' : IsCall (mkCall 257 [0, 0, 0, 0]) 257 := ⟨rfl, rfl⟩
      have h2 := (C72_openat ids ps _ hc').1 (h _ ((C72_openat ids (.Dns :: ps) _ hc').2
        (.inl ⟨by simp, by decide, by simp only [hasNone]; decide⟩)))
      rcases h2 with ⟨h2, _⟩ | ⟨_, h2, _⟩ | ⟨h2, _⟩
      · exact .inl (h2.resolve_right hd)
      · exact absurd h2 (by decide)
      · rcases h1 with h1 | h1 | h1
        · exact .inl h1
        · exact .inr ⟨h1, h2⟩
        · exact absurd h1 hd

/-- C73: promise `p` adds nothing to the list `ps` exactly if it is in the list, or is one of six promises (Default, VmInfo,
RecvFd, SendFd, TmpPath, Dns) all of whose calls are allowed by others in the list. The other promises each allow some call that
all others together do not. -/
theorem C73_redundant_iff (p : Promise) (ps : List Promise) : AddsNothing p ps ↔ p ∈ ps ∨ Covered ps p := by
  constructor
  · exact fun h => essential (h ⟨1, 1⟩)
  · rintro (h | h)
    · exact addsNothing_of fun ids d ha hp => permits_allows ha h hp
    · exact covered_adds_nothing h

example : AddsNothing .Dns [.StdIO, .Inet, .WPath, .CPath] := (C73_redundant_iff _ _).2 (.inr (by simp [Covered]))
example : ¬ AddsNothing .Dns [.StdIO, .Inet, .WPath] := by rw [C73_redundant_iff]; simp [Covered]
example : ¬ AddsNothing .FAttr [.WPath, .CPath, .Chown, .StdIO] := by rw [C73_redundant_iff]; simp [Covered]

end Props
