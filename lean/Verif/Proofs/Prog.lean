import Verif.Proofs.Frag
import Verif.Proofs.Bits

/-!
# The generated program as a whole
-/
set_option autoImplicit false

namespace Pledge
open Bpfvm Spec

def allPromises : List Promise := [.Default, .StdIO, .RPath, .WPath, .CPath, .DPath, .FLock, .FAttr, .Inet, .Unix, .Dns, .Tty, .RecvFd, .SendFd, .Proc, .Id, .Chown, .SetTime, .ProtExec, .Exec, .VmInfo, .TmpPath, .Unveil]

theorem mem_allPromises (p : Promise) : p ∈ allPromises := by cases p <;> decide

/-- The table as a total function. -/
def filtersOf : Promise → List Filtered
  | .Default => filtersDefault
  | .StdIO => filtersStdIO
  | .RPath => filtersRPath
  | .WPath => filtersWPath
  | .CPath => filtersCPath
  | .DPath => filtersDPath
  | .FLock => filtersFLock
  | .FAttr => filtersFAttr
  | .Inet => filtersInet
  | .Unix => filtersUnix
  | .Dns => filtersDns
  | .Tty => filtersTty
  | .RecvFd => filtersRecvFd
  | .SendFd => filtersSendFd
  | .Proc => filtersProc
  | .Id => filtersId
  | .Chown => filtersChown
  | .SetTime => filtersSetTime
  | .ProtExec => filtersProtExec
  | .Exec => filtersExec
  | .VmInfo => filtersVmInfo
  | .TmpPath => filtersTmpPath
  | .Unveil => filtersUnveil

theorem getFilters_eq (p : Promise) : getFilters p = .ok (filtersOf p) := by cases p <;> rfl

theorem mapM_ok {ε α β : Type} (f : α → Res ε β) (g : α → β) (h : ∀ a, f a = .ok (g a)) (l : List α) :
    Res.mapM f l = .ok (l.map g) := by
  induction l with
  | nil => rfl
  | cons a l ih => simp [Res.mapM, h, ih]

/-- The four header instructions. -/
def header : List SockFilter := [⟨0x20, 0, 0, 4⟩, ⟨0x15, 1, 0, 0xc000003e⟩, ⟨0x6, 0, 0, 0x80000000⟩, ⟨0x20, 0, 0, 0⟩]

/-- The fragments of a list of filters. -/
def body (ids : Ids) (fs : List Filtered) : List SockFilter := (fs.map (frag ids)).flatten

/-- All filters of a promise list, Default first. -/
def allFilters (ps : List Promise) : List Filtered := ((.Default :: ps).map filtersOf).flatten

/-- The whole program. -/
def progOf (ids : Ids) (ps : List Promise) (v : BitVec 32) : List SockFilter :=
  header ++ body ids (allFilters ps) ++ [⟨0x6, 0, 0, v⟩]

theorem promisesToProg_eq (b : Build) (ids : Ids) (ps : List Promise) (v : SeccompReturn) :
    promisesToProg b ids ps v = .ok (progOf ids ps v.toU32) := by
  unfold promisesToProg filtersToProg
  rw [mapM_ok getFilters filtersOf getFilters_eq]
  simp only [Res.bind]
  rw [mapM_ok (filterToBpf b ids) (frag ids) (filterToBpf_eq b ids), bpfHeader_eq, bpfFooter_eq]
  simp [progOf, header, body, allFilters, List.flatten_append]

open Classical in
theorem ev_body (ids : Ids) (d : SeccompData) (fs : List Filtered) :
    ev d.words (body ids fs) 0 d.nr = if ∃ f ∈ fs, Match ids d f then .ret 0x7fff0000 else .fall d.nr := by
  induction fs with
  | nil => simp [body, ev]
  | cons f fs ih =>
    have hb : body ids (f :: fs) = frag ids f ++ body ids fs := by simp [body]
    have hf := ev_frag ids f d
    rw [hb]
    by_cases hm : Match ids d f
    · rw [ev_append _ _ _ _ _ (by rw [hf.1 hm]; simp), hf.1 hm]
      rw [if_pos ⟨f, by simp, hm⟩]
    · rw [ev_append _ _ _ _ _ (by rw [hf.2 hm]; simp), hf.2 hm]
      simp only [ih]
      by_cases he : ∃ f ∈ fs, Match ids d f
      · rw [if_pos he, if_pos (by obtain ⟨g, h1, h2⟩ := he; exact ⟨g, by simp [h1], h2⟩)]
      · rw [if_neg he, if_neg (by
          rintro ⟨g, h1, h2⟩
          simp only [List.mem_cons] at h1
          rcases h1 with rfl | h1
          · exact hm h2
          · exact he ⟨g, h1, h2⟩)]

open Classical in
theorem ev_prog (ids : Ids) (d : SeccompData) (ps : List Promise) (v : BitVec 32) :
    ev d.words (progOf ids ps v) 0 0 =
      .ret (if d.arch ≠ 0xC000003E then 0x80000000
        else if ∃ f ∈ allFilters ps, Match ids d f then 0x7fff0000 else v) := by
  have hh : ∀ a, ev d.words header 0 a = if d.arch = 0xC000003E then .fall d.nr else .ret 0x80000000 := by
    intro a
    simp only [header, ev_ld4, ev_jeq, ev_ret, ev_skip, ev_ld0, ev_nil, BitVec.reduceToNat]
  unfold progOf
  rw [List.append_assoc]
  by_cases ha : d.arch = 0xC000003E
  · rw [ev_append _ _ _ _ _ (by rw [hh]; simp [ha]), hh, if_pos ha]
    simp only [ha, ne_eq, not_true_eq_false, if_false]
    have hb := ev_body ids d (allFilters ps)
    by_cases he : ∃ f ∈ allFilters ps, Match ids d f
    · rw [if_pos he] at hb
      rw [ev_append _ _ _ _ _ (by rw [hb]; simp), hb, if_pos he]
    · rw [if_neg he] at hb
      rw [ev_append _ _ _ _ _ (by rw [hb]; simp), hb, if_neg he]
      simp only [ev_ret]
  · rw [ev_append _ _ _ _ _ (by rw [hh, if_neg ha]; simp), hh, if_neg ha]
    simp only [ne_eq, ha, not_false_eq_true, if_true]

/-! ## matching filters against the specification -/

def isWhitelist : Filtered → Bool
  | .Whitelist _ => true
  | _ => false

/-- The argument-checking filters of each promise. -/
def special : Promise → List Filtered
  | .StdIO => [.FcntlStdio, .MmapNoexec, .MprotectNoexec, .SendtoAddrless, .IoctlRestrict, .KillSelf, .TkillSelf, .PrctlStdio, .CloneThread, .Prlimit64Stdio]
  | .RPath => [.OpenReadonly, .OpenatReadonly]
  | .WPath => [.OpenWriteonly, .OpenatWriteonly, .ChmodNobits, .FchmodNobits, .FchmodatNobits]
  | .CPath => [.OpenCreateonly, .OpenatCreateonly, .CreatRestrict]
  | .FLock => [.FcntlLock]
  | .FAttr => [.ChmodNobits, .FchmodNobits, .FchmodatNobits]
  | .Inet => [.SocketInet, .IoctlInet, .GetsockoptRestrict, .SetsockoptRestrict]
  | .Unix => [.SocketUnix, .GetsockoptRestrict, .SetsockoptRestrict]
  | .Dns => [.SocketInet, .OpenatReadonly]
  | .Tty => [.IoctlTty]
  | .Proc => [.CloneRestrict]
  | .ProtExec => [.MmapExec]
  | _ => []

theorem special_eq (p : Promise) : (filtersOf p).filter (fun f => !isWhitelist f) = special p := by
  cases p <;> rfl

/-- Every table row is a whitelist entry of its promises, and vice versa. -/
def tableOK : Bool :=
  freeTable.all (fun r => decide (r.1 < 2 ^ 32) && r.2.2.all fun p => (filtersOf p).contains (.Whitelist (BitVec.ofNat 64 r.1))) &&
  allPromises.all fun p => (filtersOf p).all fun f =>
    match f with
    | .Whitelist s => decide (s.toNat < 2 ^ 32) && freeTable.any fun r => r.1 == s.toNat && r.2.2.contains p
    | _ => true

theorem tableOK_true : tableOK = true := by decide +kernel

theorem free_iff (p : Promise) (nr : BitVec 32) :
    (∃ s, .Whitelist s ∈ filtersOf p ∧ nr = s.setWidth 32) ↔ Free nr.toNat p := by
  have h := tableOK_true
  simp only [tableOK, Bool.and_eq_true, List.all_eq_true, decide_eq_true_eq, List.contains_iff_mem] at h
  obtain ⟨h1, h2⟩ := h
  constructor
  · rintro ⟨s, hs, rfl⟩
    have := h2 p (mem_allPromises p) _ hs
    simp only [Bool.and_eq_true, decide_eq_true_eq, List.any_eq_true, beq_iff_eq, List.contains_iff_mem] at this
    obtain ⟨hlt, ⟨n, name, ps⟩, hr, hn, hp⟩ := this
    refine ⟨name, ps, ?_, hp⟩
    rw [BitVec.toNat_setWidth, Nat.mod_eq_of_lt hlt, ← hn]
    exact hr
  · rintro ⟨name, ps, hr, hp⟩
    obtain ⟨hlt, hw⟩ := h1 _ hr
    refine ⟨_, hw p hp, ?_⟩
    apply BitVec.eq_of_toNat_eq
    simp

theorem mem_special (p : Promise) (f : Filtered) : f ∈ special p ↔ f ∈ filtersOf p ∧ isWhitelist f = false := by
  rw [← special_eq]; simp

theorem perm7 (x : BitVec 32) (h : x ∈ [3#32, 4, 15, 2, 9, 20, 21]) : x ∈ [2#32, 3#32, 4#32, 9#32, 15#32, 20#32, 21#32] := by
  simp only [List.mem_cons, List.not_mem_nil, or_false] at *
  grind -ext

theorem perm7' (x : BitVec 32) (h : x ∈ [2#32, 3#32, 4#32, 9#32, 15#32, 20#32, 21#32]) : x ∈ [3#32, 4, 15, 2, 9, 20, 21] := by
  simp only [List.mem_cons, List.not_mem_nil, or_false] at *
  grind -ext

theorem perm13 (x : BitVec 32) (h : x ∈ [1#32, 3, 4, 5, 15, 2, 9, 20, 21, 12, 11, 23, 30]) : x ∈ [1#32, 2#32, 3#32, 4#32, 5#32, 9#32, 11#32, 12#32, 15#32, 20#32, 21#32, 23#32, 30#32] := by
  simp only [List.mem_cons, List.not_mem_nil, or_false] at *
  grind -ext

theorem perm13' (x : BitVec 32) (h : x ∈ [1#32, 2#32, 3#32, 4#32, 5#32, 9#32, 11#32, 12#32, 15#32, 20#32, 21#32, 23#32, 30#32]) : x ∈ [1#32, 3, 4, 5, 15, 2, 9, 20, 21, 12, 11, 23, 30] := by
  simp only [List.mem_cons, List.not_mem_nil, or_false] at *
  grind -ext

theorem arg_iff (ids : Ids) (d : SeccompData) (p : Promise) :
    (∃ f ∈ special p, Match ids d f) ↔ ArgRule ids d p := by
  have hA : ∀ i, A d i = arg d i := fun i => lo_eq_setWidth _
  have m1 := mask_none (arg d 3) 0x5a000 [13, 15, 16, 18] (by decide)
  have m2 := mask_all (arg d 0) 0x10f00 [8, 9, 10, 11, 16] (by decide)
  have m3 := mask_none (arg d 0) 0x822000 [13, 17, 23] (by decide)
  have m4 := mask_none (arg d 2) 0x400240 [6, 9, 22] (by decide)
  have m5 := mask_none (arg d 2) 0x400040 [6, 22] (by decide)
  have m6 := mask_none (arg d 1) 0xe00 [9, 10, 11] (by decide)
  have m7 := mask_none (arg d 3) 0xe00 [9, 10, 11] (by decide)
  have m8 := mask_none (arg d 3) 0x52000 [13, 16, 18] (by decide)
  have m9 := mask_two_none (arg d 2)
  have m10 := mask_prot (arg d 2)
  have a0 := acc_mode0 (arg d 2)
  have a1 := acc_mode1 (arg d 2)
  have a2 := acc_mode2 (arg d 2)
  have s1 := sock_type (arg d 1) 1 (by decide)
  have s2 := sock_type (arg d 1) 2 (by decide)
  have z : (arg d 4 = 0 ∧ hi (d.args 4) = 0) ↔ d.args 4 = 0 := by rw [← hA]; exact arg_zero _
  have l4 := not_lt_iff (arg d 1) 4 (by decide)
  have l2 := not_lt_iff (arg d 2) 2 (by decide)
  constructor
  · rintro ⟨f, hf, hm⟩
    cases p <;> simp only [special, List.mem_cons, List.not_mem_nil, or_false] at hf
    case StdIO =>
      rcases hf with rfl | rfl | rfl | rfl | rfl | rfl | rfl | rfl | rfl | rfl <;>
        simp only [Match, hA, m1, m2, m3, m10, z, l4, l2] at hm
      · exact .fcntl_stdio hm.1 (by rw [or_comm]; exact hm.2)
      · exact .mmap_stdio hm.1 hm.2.1 hm.2.2
      · exact .mprotect_stdio hm.1 hm.2
      · exact .sendto_stdio hm.1 hm.2
      · exact .ioctl_stdio hm.1 (by simpa using hm.2)
      · exact .kill_stdio hm.1 hm.2
      · exact .tkill_stdio hm.1 hm.2
      · refine .prctl_stdio hm.1 ?_
        simp only [List.mem_cons, List.not_mem_nil, or_false]
        rcases hm.2 with h | h | h | h | h | h | h <;> simp [h]
      · exact .clone_stdio hm.1 hm.2.1 hm.2.2
      · exact .prlimit_stdio hm.1 hm.2
    case RPath =>
      rcases hf with rfl | rfl <;> simp only [Match, hA, m4, a0] at hm
      · exact .open_rpath hm.1 hm.2.1 hm.2.2
      · exact .openat_read _ (by simp) hm.1 hm.2.1 hm.2.2
    case WPath =>
      rcases hf with rfl | rfl | rfl | rfl | rfl <;> simp only [Match, hA, m5, m6, a1, a2] at hm
      · exact .open_wpath hm.1 (by simpa using hm.2.1) hm.2.2
      · exact .openat_wpath hm.1 (by simpa using hm.2.1) hm.2.2
      · exact .chmod _ (by simp) (.inl hm.1) hm.2
      · exact .chmod _ (by simp) (.inr hm.1) hm.2
      · exact .fchmodat _ (by simp) hm.1 hm.2
    case CPath =>
      rcases hf with rfl | rfl | rfl <;> simp only [Match, hA, m9, m6, m7] at hm
      · exact .open_cpath hm.1 hm.2
      · exact .openat_cpath hm.1 hm.2
      · exact .creat_cpath hm.1 hm.2
    case FLock =>
      subst hf; simp only [Match, hA] at hm
      exact .fcntl_flock hm.1 (by simpa using hm.2)
    case FAttr =>
      rcases hf with rfl | rfl | rfl <;> simp only [Match, hA, m6] at hm
      · exact .chmod _ (by simp) (.inl hm.1) hm.2
      · exact .chmod _ (by simp) (.inr hm.1) hm.2
      · exact .fchmodat _ (by simp) hm.1 hm.2
    case Inet =>
      rcases hf with rfl | rfl | rfl | rfl <;> simp only [Match, hA, s1, s2] at hm
      · exact .socket_inet _ (by simp) hm.1 (by simpa using hm.2.1) hm.2.2.1 (by simpa using hm.2.2.2)
      · exact .ioctl_inet hm.1 hm.2
      · exact .getsockopt _ (by simp) hm.1 (by simpa using hm.2.1) (perm7 _ hm.2.2)
      · exact .getsockopt_again _ (by simp) hm.1 (by simpa using hm.2.1) (perm13 _ hm.2.2)
    case Unix =>
      rcases hf with rfl | rfl | rfl <;> simp only [Match, hA, s1, s2] at hm
      · exact .socket_unix hm.1 hm.2.1 hm.2.2.1 hm.2.2.2
      · exact .getsockopt _ (by simp) hm.1 (by simpa using hm.2.1) (perm7 _ hm.2.2)
      · exact .getsockopt_again _ (by simp) hm.1 (by simpa using hm.2.1) (perm13 _ hm.2.2)
    case Dns =>
      rcases hf with rfl | rfl <;> simp only [Match, hA, s1, s2, m4, a0] at hm
      · exact .socket_inet _ (by simp) hm.1 (by simpa using hm.2.1) hm.2.2.1 (by simpa using hm.2.2.2)
      · exact .openat_read _ (by simp) hm.1 hm.2.1 hm.2.2
    case Tty =>
      subst hf; simp only [Match, hA] at hm
      exact .ioctl_tty hm.1 hm.2
    case Proc =>
      subst hf; simp only [Match, hA, m3] at hm
      exact .clone_proc hm.1 hm.2
    case ProtExec =>
      subst hf; simp only [Match, hA, m8] at hm
      exact .mmap_protexec hm.1 hm.2
  · intro h
    cases h with
    | fcntl_stdio h1 h2 => exact ⟨.FcntlStdio, by simp [special], by simp only [Match, hA, l4]; exact ⟨h1, or_comm.1 h2⟩⟩
    | fcntl_flock h1 h2 => exact ⟨.FcntlLock, by simp [special], by simp only [Match, hA]; exact ⟨h1, by simpa using h2⟩⟩
    | mmap_stdio h1 h2 h3 => exact ⟨.MmapNoexec, by simp [special], by simp only [Match, hA, m1, l2]; exact ⟨h1, h2, h3⟩⟩
    | mmap_protexec h1 h2 => exact ⟨.MmapExec, by simp [special], by simp only [Match, hA, m8]; exact ⟨h1, h2⟩⟩
    | mprotect_stdio h1 h2 => exact ⟨.MprotectNoexec, by simp [special], by simp only [Match, hA, m10]; exact ⟨h1, h2⟩⟩
    | sendto_stdio h1 h2 => exact ⟨.SendtoAddrless, by simp [special], by simp only [Match, hA, z]; exact ⟨h1, h2⟩⟩
    | ioctl_stdio h1 h2 => exact ⟨.IoctlRestrict, by simp [special], by simp only [Match, hA]; exact ⟨h1, by simpa using h2⟩⟩
    | ioctl_inet h1 h2 => exact ⟨.IoctlInet, by simp [special], by simp only [Match, hA]; exact ⟨h1, h2⟩⟩
    | ioctl_tty h1 h2 => exact ⟨.IoctlTty, by simp [special], by simp only [Match, hA]; exact ⟨h1, h2⟩⟩
    | kill_stdio h1 h2 => exact ⟨.KillSelf, by simp [special], by simp only [Match, hA]; exact ⟨h1, h2⟩⟩
    | tkill_stdio h1 h2 => exact ⟨.TkillSelf, by simp [special], by simp only [Match, hA]; exact ⟨h1, h2⟩⟩
    | prctl_stdio h1 h2 =>
      refine ⟨.PrctlStdio, by simp [special], ?_⟩
      simp only [Match, hA]; refine ⟨h1, ?_⟩
      simp only [List.mem_cons, List.not_mem_nil, or_false] at h2
      rcases h2 with h | h | h | h | h | h | h <;> simp [h]
    | clone_stdio h1 h2 h3 => exact ⟨.CloneThread, by simp [special], by simp only [Match, hA, m2, m3]; exact ⟨h1, h2, h3⟩⟩
    | clone_proc h1 h2 => exact ⟨.CloneRestrict, by simp [special], by simp only [Match, hA, m3]; exact ⟨h1, h2⟩⟩
    | prlimit_stdio h1 h2 => exact ⟨.Prlimit64Stdio, by simp [special], by simp only [Match, hA]; exact ⟨h1, h2⟩⟩
    | open_rpath h1 h2 h3 => exact ⟨.OpenReadonly, by simp [special], by simp only [Match, hA, m4, a0]; exact ⟨h1, h2, h3⟩⟩
    | openat_read _ hp h1 h2 h3 =>
      refine ⟨.OpenatReadonly, ?_, by simp only [Match, hA, m4, a0]; exact ⟨h1, h2, h3⟩⟩
      simp only [List.mem_cons, List.not_mem_nil, or_false] at hp
      rcases hp with rfl | rfl <;> simp [special]
    | open_wpath h1 h2 h3 =>
      exact ⟨.OpenWriteonly, by simp [special], by simp only [Match, hA, m5, a1, a2]; exact ⟨h1, by simpa using h2, h3⟩⟩
    | openat_wpath h1 h2 h3 =>
      exact ⟨.OpenatWriteonly, by simp [special], by simp only [Match, hA, m5, a1, a2]; exact ⟨h1, by simpa using h2, h3⟩⟩
    | open_cpath h1 h2 => exact ⟨.OpenCreateonly, by simp [special], by simp only [Match, hA, m9, m7]; exact ⟨h1, h2⟩⟩
    | openat_cpath h1 h2 => exact ⟨.OpenatCreateonly, by simp [special], by simp only [Match, hA, m9, m7]; exact ⟨h1, h2⟩⟩
    | creat_cpath h1 h2 => exact ⟨.CreatRestrict, by simp [special], by simp only [Match, hA, m6]; exact ⟨h1, h2⟩⟩
    | chmod _ hp h1 h2 =>
      simp only [List.mem_cons, List.not_mem_nil, or_false] at hp
      rcases h1 with h1 | h1
      · refine ⟨.ChmodNobits, ?_, by simp only [Match, hA, m6]; exact ⟨h1, h2⟩⟩
        rcases hp with rfl | rfl <;> simp [special]
      · refine ⟨.FchmodNobits, ?_, by simp only [Match, hA, m6]; exact ⟨h1, h2⟩⟩
        rcases hp with rfl | rfl <;> simp [special]
    | fchmodat _ hp h1 h2 =>
      refine ⟨.FchmodatNobits, ?_, by simp only [Match, hA, m6]; exact ⟨h1, h2⟩⟩
      simp only [List.mem_cons, List.not_mem_nil, or_false] at hp
      rcases hp with rfl | rfl <;> simp [special]
    | socket_inet _ hp h1 h2 h3 h4 =>
      refine ⟨.SocketInet, ?_, by simp only [Match, hA, s1, s2]; exact ⟨h1, by simpa using h2, h3, by simpa using h4⟩⟩
      simp only [List.mem_cons, List.not_mem_nil, or_false] at hp
      rcases hp with rfl | rfl <;> simp [special]
    | socket_unix h1 h2 h3 h4 =>
      exact ⟨.SocketUnix, by simp [special], by simp only [Match, hA, s1, s2]; exact ⟨h1, h2, h3, h4⟩⟩
    | getsockopt _ hp h1 h2 h3 =>
      refine ⟨.GetsockoptRestrict, ?_, by simp only [Match, hA]; exact ⟨h1, by simpa using h2, perm7' _ h3⟩⟩
      simp only [List.mem_cons, List.not_mem_nil, or_false] at hp
      rcases hp with rfl | rfl <;> simp [special]
    | getsockopt_again _ hp h1 h2 h3 =>
      refine ⟨.SetsockoptRestrict, ?_, by simp only [Match, hA]; exact ⟨h1, by simpa using h2, perm13' _ h3⟩⟩
      simp only [List.mem_cons, List.not_mem_nil, or_false] at hp
      rcases hp with rfl | rfl <;> simp [special]

theorem match_iff (ids : Ids) (d : SeccompData) (p : Promise) :
    (∃ f ∈ filtersOf p, Match ids d f) ↔ Permits ids p d := by
  unfold Permits
  rw [← free_iff, ← arg_iff]
  constructor
  · rintro ⟨f, hf, hm⟩
    cases hw : isWhitelist f
    · exact .inr ⟨f, (mem_special p f).2 ⟨hf, hw⟩, hm⟩
    · cases f <;> simp [isWhitelist] at hw
      exact .inl ⟨_, hf, hm⟩
  · rintro (⟨s, hs, h⟩ | ⟨f, hf, hm⟩)
    · exact ⟨_, hs, h⟩
    · exact ⟨f, ((mem_special p f).1 hf).1, hm⟩

theorem allFilters_iff (ids : Ids) (d : SeccompData) (ps : List Promise) :
    (∃ f ∈ allFilters ps, Match ids d f) ↔ Allowed ids ps d := by
  unfold Allowed allFilters
  rw [← match_iff]
  constructor
  · rintro ⟨f, hf, hm⟩
    simp only [List.mem_flatten, List.mem_map, List.mem_cons] at hf
    obtain ⟨l, ⟨p, hp, rfl⟩, hf⟩ := hf
    rcases hp with rfl | hp
    · exact .inl ⟨f, hf, hm⟩
    · exact .inr ⟨p, hp, (match_iff ids d p).1 ⟨f, hf, hm⟩⟩
  · rintro (⟨f, hf, hm⟩ | ⟨p, hp, h⟩)
    · exact ⟨f, by simp only [List.mem_flatten, List.mem_map, List.mem_cons]; exact ⟨_, ⟨_, .inl rfl, rfl⟩, hf⟩, hm⟩
    · obtain ⟨f, hf, hm⟩ := (match_iff ids d p).2 h
      exact ⟨f, by simp only [List.mem_flatten, List.mem_map, List.mem_cons]; exact ⟨_, ⟨_, .inr hp, rfl⟩, hf⟩, hm⟩

theorem ev_prog_verdict (ids : Ids) (d : SeccompData) (ps : List Promise) (v : BitVec 32) :
    ev d.words (progOf ids ps v) 0 0 = .ret (verdict ids ps v d) := by
  classical
  rw [ev_prog, verdict]
  simp only [allFilters_iff, X86_64]
  congr

end Pledge
