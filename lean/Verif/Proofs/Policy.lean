import Verif.Proofs.Prefix
import Verif.Spec.Observe

/-!
# From the verdict to the policy: lemmas used by the property files
-/
set_option autoImplicit false

namespace Spec
open Pledge Bpfvm

theorem filterVerdict_eq (b : Build) (ids : Ids) (ps : List Promise) (v : SeccompReturn) (d : SeccompData) :
    filterVerdict b ids ps v d = some (verdict ids ps v.toU32 d) := by
  simp only [filterVerdict, promisesToProg_eq, Kernel.run_progOf]

theorem verdict_foreign {ids : Ids} {ps : List Promise} {v : BitVec 32} {d : SeccompData} (h : d.arch ≠ X86_64) :
    verdict ids ps v d = 0x80000000 := by
  classical
  unfold verdict; rw [if_pos h]

theorem verdict_allowed {ids : Ids} {ps : List Promise} {v : BitVec 32} {d : SeccompData} (h : d.arch = X86_64)
    (ha : Allowed ids ps d) : verdict ids ps v d = 0x7fff0000 := by
  classical
  unfold verdict; rw [if_neg (by simpa using h), if_pos ha]

theorem verdict_denied {ids : Ids} {ps : List Promise} {v : BitVec 32} {d : SeccompData} (h : d.arch = X86_64)
    (ha : ¬ Allowed ids ps d) : verdict ids ps v d = v := by
  classical
  unfold verdict; rw [if_neg (by simpa using h), if_neg ha]

theorem verdict_congr {ids ids' : Ids} {ps qs : List Promise} {v : BitVec 32} {d e : SeccompData} (ha : d.arch = e.arch)
    (h : Allowed ids ps d ↔ Allowed ids' qs e) : verdict ids ps v d = verdict ids' qs v e := by
  by_cases h1 : d.arch = X86_64
  · by_cases h2 : Allowed ids ps d
    · rw [verdict_allowed h1 h2, verdict_allowed (ha ▸ h1) (h.1 h2)]
    · rw [verdict_denied h1 h2, verdict_denied (ha ▸ h1) (fun h' => h2 (h.2 h'))]
  · rw [verdict_foreign h1, verdict_foreign (ha ▸ h1)]

theorem allows_iff (ids : Ids) (ps : List Promise) (d : SeccompData) :
    Allows ids ps d ↔ d.arch = X86_64 ∧ Allowed ids ps d := by
  constructor
  · intro h
    have h1 := h ⟨true⟩ .KillProcess
    rw [filterVerdict_eq, Option.some.injEq] at h1
    by_cases ha : d.arch = X86_64
    · refine ⟨ha, ?_⟩
      by_cases hd : Allowed ids ps d
      · exact hd
      · rw [verdict_denied ha hd] at h1
        simp [SeccompReturn.toU32, SECCOMP_RET_KILL_PROCESS] at h1
    · rw [verdict_foreign ha] at h1; simp at h1
  · rintro ⟨h1, h2⟩ b v
    rw [filterVerdict_eq, verdict_allowed h1 h2]

theorem denies_iff (ids : Ids) (ps : List Promise) (d : SeccompData) :
    Denies ids ps d ↔ d.arch = X86_64 ∧ ¬ Allowed ids ps d := by
  constructor
  · intro h
    by_cases ha : d.arch = X86_64
    · refine ⟨ha, fun hd => ?_⟩
      have h1 := h ⟨true⟩ .KillProcess
      rw [filterVerdict_eq, Option.some.injEq, verdict_allowed ha hd] at h1
      simp [SeccompReturn.toU32, SECCOMP_RET_KILL_PROCESS] at h1
    · have h1 := h ⟨true⟩ .Log
      rw [filterVerdict_eq, Option.some.injEq, verdict_foreign ha] at h1
      simp [SeccompReturn.toU32, SECCOMP_RET_LOG] at h1
  · rintro ⟨h1, h2⟩ b v
    rw [filterVerdict_eq, verdict_denied h1 h2]

theorem denies_iff_not_allows {ids : Ids} {ps : List Promise} {d : SeccompData} (h : d.arch = X86_64) :
    Denies ids ps d ↔ ¬ Allows ids ps d := by
  rw [denies_iff, allows_iff]; simp [h]

/-- The promises under which number `n` is free. -/
def freeOf (n : Nat) : List Promise := (freeTable.filter (fun r => r.1 == n)).flatMap (fun r => r.2.2)

theorem free_iff_mem (n : Nat) (p : Promise) : Free n p ↔ p ∈ freeOf n := by
  simp only [Free, freeOf, List.mem_flatMap, List.mem_filter, beq_iff_eq]
  constructor
  · rintro ⟨name, ps, h, hp⟩; exact ⟨(n, name, ps), ⟨h, rfl⟩, hp⟩
  · rintro ⟨⟨n', name, ps⟩, ⟨h, rfl⟩, hp⟩; exact ⟨name, ps, h, hp⟩

/-- The argument rules, sorted by system call number. -/
def ruleAt (ids : Ids) (d : SeccompData) (p : Promise) (n : Nat) : Prop :=
  match n with
  | 72 => p = .StdIO ∧ ((arg d 1).toNat ≤ 4 ∨ arg d 1 = 1030) ∨ p = .FLock ∧ arg d 1 ∈ [5#32, 6#32, 7#32]
  | 9 => p = .StdIO ∧ (arg d 2).toNat ≤ 2 ∧ hasNone (arg d 3) [13, 15, 16, 18] ∨ p = .ProtExec ∧ hasNone (arg d 3) [13, 16, 18]
  | 10 => p = .StdIO ∧ (∀ i, 2 ≤ i → (arg d 2).getLsbD i = false)
  | 44 => p = .StdIO ∧ d.args 4 = 0
  | 16 => p = .StdIO ∧ arg d 1 ∈ [0x541B#32, 0x5421#32, 0x5451#32, 0x5450#32] ∨ p = .Inet ∧ arg d 1 = 0x8905 ∨
      p = .Tty ∧ arg d 1 ∈ [0x5401#32, 0x5402#32, 0x5403#32, 0x5404#32, 0x5413#32, 0x5410#32, 0x540F#32,
      0x5414#32, 0x540B#32, 0x540A#32, 0x5409#32, 0x5427#32]
  | 62 => p = .StdIO ∧ arg d 0 = ids.pid
  | 200 => p = .StdIO ∧ arg d 0 = ids.tid
  | 157 => p = .StdIO ∧ arg d 0 ∈ [15#32, 16#32, 21#32, 22#32, 23#32, 24#32, 38#32]
  | 56 => p = .StdIO ∧ hasAll (arg d 0) [8, 9, 10, 11, 16] ∧ hasNone (arg d 0) [13, 17, 23] ∨
      p = .Proc ∧ hasNone (arg d 0) [13, 17, 23]
  | 302 => p = .StdIO ∧ arg d 2 = 0
  | 2 => p = .RPath ∧ (arg d 2).setWidth 2 = 0#2 ∧ hasNone (arg d 2) [6, 9, 22] ∨
      p = .WPath ∧ (arg d 2).setWidth 2 ∈ [1#2, 2#2] ∧ hasNone (arg d 2) [6, 22] ∨
      p = .CPath ∧ (hasNone (arg d 2) [6, 22] ∨ hasNone (arg d 3) [9, 10, 11])
  | 257 => p ∈ [.RPath, .Dns] ∧ (arg d 2).setWidth 2 = 0#2 ∧ hasNone (arg d 2) [6, 9, 22] ∨
      p = .WPath ∧ (arg d 2).setWidth 2 ∈ [1#2, 2#2] ∧ hasNone (arg d 2) [6, 22] ∨
      p = .CPath ∧ (hasNone (arg d 2) [6, 22] ∨ hasNone (arg d 3) [9, 10, 11])
  | 85 => p = .CPath ∧ hasNone (arg d 1) [9, 10, 11]
  | 90 => p ∈ [.WPath, .FAttr] ∧ hasNone (arg d 1) [9, 10, 11]
  | 91 => p ∈ [.WPath, .FAttr] ∧ hasNone (arg d 1) [9, 10, 11]
  | 268 => p ∈ [.WPath, .FAttr] ∧ hasNone (arg d 1) [9, 10, 11]
  | 41 => p ∈ [.Inet, .Dns] ∧ arg d 0 ∈ [2#32, 10#32] ∧ (isSockType (arg d 1) 1 ∨ isSockType (arg d 1) 2) ∧
        arg d 2 ∈ [0#32, 1#32, 6#32, 17#32] ∨
      p = .Unix ∧ arg d 0 = 1 ∧ (isSockType (arg d 1) 1 ∨ isSockType (arg d 1) 2) ∧ arg d 2 = 0
  | 55 => p ∈ [.Inet, .Unix] ∧ (arg d 1 ∈ [1#32, 6#32] ∧ arg d 2 ∈ [2#32, 3#32, 4#32, 9#32, 15#32, 20#32, 21#32] ∨
      arg d 1 ∈ [0#32, 1#32, 6#32] ∧
      arg d 2 ∈ [1#32, 2#32, 3#32, 4#32, 5#32, 9#32, 11#32, 12#32, 15#32, 20#32, 21#32, 23#32, 30#32])
  | _ => False

theorem nr_eq {d : SeccompData} {n : Nat} (h : d.nr.toNat = n) : d.nr = BitVec.ofNat 32 n := by
  apply BitVec.eq_of_toNat_eq; rw [h]; have := d.nr.isLt; simp; omega

theorem argRule_imp {ids : Ids} {d : SeccompData} {p : Promise} (h : ArgRule ids d p) : ruleAt ids d p d.nr.toNat := by
  cases h with
  | fcntl_stdio h1 h2 => rw [h1]; exact .inl ⟨rfl, h2⟩
  | fcntl_flock h1 h2 => rw [h1]; exact .inr ⟨rfl, h2⟩
  | mmap_stdio h1 h2 h3 => rw [h1]; exact .inl ⟨rfl, h2, h3⟩
  | mmap_protexec h1 h2 => rw [h1]; exact .inr ⟨rfl, h2⟩
  | mprotect_stdio h1 h2 => rw [h1]; exact ⟨rfl, h2⟩
  | sendto_stdio h1 h2 => rw [h1]; exact ⟨rfl, h2⟩
  | ioctl_stdio h1 h2 => rw [h1]; exact .inl ⟨rfl, h2⟩
  | ioctl_inet h1 h2 => rw [h1]; exact .inr (.inl ⟨rfl, h2⟩)
  | ioctl_tty h1 h2 => rw [h1]; exact .inr (.inr ⟨rfl, h2⟩)
  | kill_stdio h1 h2 => rw [h1]; exact ⟨rfl, h2⟩
  | tkill_stdio h1 h2 => rw [h1]; exact ⟨rfl, h2⟩
  | prctl_stdio h1 h2 => rw [h1]; exact ⟨rfl, h2⟩
  | clone_stdio h1 h2 h3 => rw [h1]; exact .inl ⟨rfl, h2, h3⟩
  | clone_proc h1 h2 => rw [h1]; exact .inr ⟨rfl, h2⟩
  | prlimit_stdio h1 h2 => rw [h1]; exact ⟨rfl, h2⟩
  | open_rpath h1 h2 h3 => rw [h1]; exact .inl ⟨rfl, h2, h3⟩
  | openat_read _ hp h1 h2 h3 => rw [h1]; exact .inl ⟨hp, h2, h3⟩
  | open_wpath h1 h2 h3 => rw [h1]; exact .inr (.inl ⟨rfl, h2, h3⟩)
  | openat_wpath h1 h2 h3 => rw [h1]; exact .inr (.inl ⟨rfl, h2, h3⟩)
  | open_cpath h1 h2 => rw [h1]; exact .inr (.inr ⟨rfl, h2⟩)
  | openat_cpath h1 h2 => rw [h1]; exact .inr (.inr ⟨rfl, h2⟩)
  | creat_cpath h1 h2 => rw [h1]; exact ⟨rfl, h2⟩
  | chmod _ hp h1 h2 => rcases h1 with h1 | h1 <;> (rw [h1]; exact ⟨hp, h2⟩)
  | fchmodat _ hp h1 h2 => rw [h1]; exact ⟨hp, h2⟩
  | socket_inet _ hp h1 h2 h3 h4 => rw [h1]; exact .inl ⟨hp, h2, h3, h4⟩
  | socket_unix h1 h2 h3 h4 => rw [h1]; exact .inr ⟨rfl, h2, h3, h4⟩
  | getsockopt _ hp h1 h2 h3 => rw [h1]; exact ⟨hp, .inl ⟨h2, h3⟩⟩
  | getsockopt_again _ hp h1 h2 h3 => rw [h1]; exact ⟨hp, .inr ⟨h2, h3⟩⟩

theorem imp_argRule {ids : Ids} {d : SeccompData} {p : Promise} {n : Nat} (hn : d.nr.toNat = n) (h : ruleAt ids d p n) :
    ArgRule ids d p := by
  have hr := nr_eq hn
  unfold ruleAt at h
  split at h
  · rcases h with ⟨rfl, h⟩ | ⟨rfl, h⟩
    · exact .fcntl_stdio hr h
    · exact .fcntl_flock hr h
  · rcases h with ⟨rfl, h, h'⟩ | ⟨rfl, h⟩
    · exact .mmap_stdio hr h h'
    · exact .mmap_protexec hr h
  · obtain ⟨rfl, h⟩ := h; exact .mprotect_stdio hr h
  · obtain ⟨rfl, h⟩ := h; exact .sendto_stdio hr h
  · rcases h with ⟨rfl, h⟩ | ⟨rfl, h⟩ | ⟨rfl, h⟩
    · exact .ioctl_stdio hr h
    · exact .ioctl_inet hr h
    · exact .ioctl_tty hr h
  · obtain ⟨rfl, h⟩ := h; exact .kill_stdio hr h
  · obtain ⟨rfl, h⟩ := h; exact .tkill_stdio hr h
  · obtain ⟨rfl, h⟩ := h; exact .prctl_stdio hr h
  · rcases h with ⟨rfl, h, h'⟩ | ⟨rfl, h⟩
    · exact .clone_stdio hr h h'
    · exact .clone_proc hr h
  · obtain ⟨rfl, h⟩ := h; exact .prlimit_stdio hr h
  · rcases h with ⟨rfl, h, h'⟩ | ⟨rfl, h, h'⟩ | ⟨rfl, h⟩
    · exact .open_rpath hr h h'
    · exact .open_wpath hr h h'
    · exact .open_cpath hr h
  · rcases h with ⟨hp, h, h'⟩ | ⟨rfl, h, h'⟩ | ⟨rfl, h⟩
    · exact .openat_read _ hp hr h h'
    · exact .openat_wpath hr h h'
    · exact .openat_cpath hr h
  · obtain ⟨rfl, h⟩ := h; exact .creat_cpath hr h
  · exact .chmod _ h.1 (.inl hr) h.2
  · exact .chmod _ h.1 (.inr hr) h.2
  · exact .fchmodat _ h.1 hr h.2
  · rcases h with ⟨hp, h, h', h''⟩ | ⟨rfl, h, h', h''⟩
    · exact .socket_inet _ hp hr h h' h''
    · exact .socket_unix hr h h' h''
  · rcases h with ⟨hp, ⟨h, h'⟩ | ⟨h, h'⟩⟩
    · exact .getsockopt _ hp hr h h'
    · exact .getsockopt_again _ hp hr h h'
  · exact h.elim

/-- `Permits`, for a known number. -/
theorem permits_iff {ids : Ids} {d : SeccompData} {n : Nat} (hn : d.nr.toNat = n) (p : Promise) :
    Permits ids p d ↔ p ∈ freeOf n ∨ ruleAt ids d p n := by
  subst hn
  unfold Permits
  rw [free_iff_mem]
  exact or_congr Iff.rfl ⟨argRule_imp, imp_argRule rfl⟩

theorem default_only_exit (ids : Ids) (d : SeccompData) : Permits ids .Default d ↔ d.nr.toNat = 60 := by
  unfold Permits
  constructor
  · rintro (⟨name, ps, h, hp⟩ | h)
    · have : ∀ r ∈ freeTable, Promise.Default ∈ r.2.2 → r.1 = 60 := by decide +kernel
      exact this _ h hp
    · have h := argRule_imp h
      unfold ruleAt at h
      split at h <;> simp at h
  · intro h; left; rw [h, free_iff_mem]; decide +kernel

/-- `Allowed`, for a known number other than exit. -/
theorem allowed_iff {ids : Ids} {d : SeccompData} {n : Nat} (hn : d.nr.toNat = n) (h60 : n ≠ 60) (ps : List Promise) :
    Allowed ids ps d ↔ ∃ p ∈ ps, p ∈ freeOf n ∨ ruleAt ids d p n := by
  unfold Allowed
  rw [default_only_exit, hn]
  simp only [permits_iff hn, h60, false_or]

/-- Allowed as a native call with a known number. -/
theorem allows_call {ids : Ids} {d : SeccompData} {n : Nat} (h : IsCall d n) (h60 : n ≠ 60) (ps : List Promise) :
    Allows ids ps d ↔ ∃ p ∈ ps, p ∈ freeOf n ∨ ruleAt ids d p n := by
  rw [allows_iff, allowed_iff h.2 h60]
  simp [h.1]

theorem denies_call {ids : Ids} {d : SeccompData} {n : Nat} (h : IsCall d n) (ps : List Promise) :
    Denies ids ps d ↔ ¬ Allows ids ps d := denies_iff_not_allows h.1

end Spec
