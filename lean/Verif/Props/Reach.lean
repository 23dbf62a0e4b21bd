import Verif.Props.Policy

/-!
# C70: which system calls can be had at all
-/
set_option autoImplicit false

namespace Props
open Pledge Bpfvm Spec

/-- The system calls that no promise gives access to, up to the largest number that some promise names (446). The ones a program is
likely to miss: setsockopt 54, sendmsg 46, getdents64 217, clock_settime 227, fallocate 285, sendmmsg 307,
statx 332, rseq 334, pidfd_send_signal 424, clone3 435, openat2 437, process_madvise 440. -/
def neverAllowed : List Nat :=
  [29, 30, 31, 46, 54, 64, 65, 66, 67, 68, 69, 70, 71, 101, 103, 125, 126, 128, 129, 134, 135, 136, 139, 148, 149, 150, 151, 152,
   153, 154, 155, 156, 159, 161, 162, 163, 165, 166, 167, 168, 169, 170, 171, 172, 173, 174, 175, 176, 177, 178, 179, 180, 181,
   182, 183, 184, 185, 187, 188, 189, 190, 191, 192, 193, 194, 195, 196, 197, 198, 199, 201, 205, 206, 207, 208, 209, 210, 211,
   212, 214, 215, 216, 217, 220, 222, 223, 224, 225, 226, 227, 236, 237, 238, 239, 240, 241, 242, 243, 244, 245, 246, 247, 248,
   249, 250, 253, 254, 255, 272, 279, 285, 294, 297, 298, 300, 301, 303, 304, 306, 307, 308, 309, 310, 311, 312, 313, 314, 315,
   317, 319, 320, 321, 323, 325, 329, 330, 331, 332, 333, 334, 335, 336, 337, 338, 339, 340, 341, 342, 343, 344, 345, 346, 347,
   348, 349, 350, 351, 352, 353, 354, 355, 356, 357, 358, 359, 360, 361, 362, 363, 364, 365, 366, 367, 368, 369, 370, 371, 372,
   373, 374, 375, 376, 377, 378, 379, 380, 381, 382, 383, 384, 385, 386, 387, 388, 389, 390, 391, 392, 393, 394, 395, 396, 397,
   398, 399, 400, 401, 402, 403, 404, 405, 406, 407, 408, 409, 410, 411, 412, 413, 414, 415, 416, 417, 418, 419, 420, 421, 422,
   423, 424, 425, 426, 427, 428, 429, 430, 431, 432, 433, 434, 435, 437, 438, 440, 442, 443]

theorem reach (n : Nat) (p : Promise) (d : SeccompData) (h : IsCall d n) (r : ArgRule ⟨1, 1⟩ d p) :
    ∃ (ids : Ids) (ps : List Promise) (d : SeccompData), IsCall d n ∧ Allows ids ps d :=
  ⟨⟨1, 1⟩, [p], d, h, (allows_iff _ _ _).2 ⟨h.1, .inr ⟨p, by simp, .inr r⟩⟩⟩

/-- C70: the exact set of system call numbers that some list of promises allows, with suitable arguments, to some thread. -/
theorem C70_reachable_iff (n : Nat) :
    (∃ (ids : Ids) (ps : List Promise) (d : SeccompData), IsCall d n ∧ Allows ids ps d) ↔ n ≤ 446 ∧ n ∉ neverAllowed := by
  constructor
  · rintro ⟨ids, ps, d, hc, ha⟩
    have hle : n ≤ 446 := by
      by_cases h : n ≤ 446
      · exact h
      · exfalso
        have hd := C04_no_large_number ids ps d hc.1 (by rw [hc.2]; omega)
        have h1 := ha ⟨true⟩ .KillProcess
        rw [hd ⟨true⟩ .KillProcess] at h1
        revert h1; decide
    refine ⟨hle, fun hn => ?_⟩
    have hall : ∀ m ∈ neverAllowed, freeOf m = [] ∧ m ∉ argNumbers ∧ m ≠ 60 := by decide +kernel
    obtain ⟨h1, h2, h3⟩ := hall n hn
    have hd := denies_plain hc [] h1 h2 h3 (by simp) (ids := ids) (ps := ps)
    have h1 := ha ⟨true⟩ .KillProcess
    rw [hd ⟨true⟩ .KillProcess] at h1
    revert h1; decide
  · rintro ⟨hle, hn⟩
    have hall : ∀ m, m < 447 → m ∉ neverAllowed → freeOf m ≠ [] ∨ m ∈ argNumbers := by decide +kernel
    by_cases h60 : n = 60
    · subst h60
      exact ⟨⟨1, 1⟩, [], mkCall 60 [], ⟨rfl, rfl⟩, C07_exit _ _ _ ⟨rfl, rfl⟩⟩
    have hmk : ∀ args, IsCall (mkCall n args) n := by
      intro args
      refine ⟨rfl, ?_⟩
      show (BitVec.ofNat 32 n).toNat = n
      rw [BitVec.toNat_ofNat]
      omega
    rcases hall n (by omega) hn with h | h
    · obtain ⟨p, hp⟩ := List.exists_mem_of_ne_nil _ h
      refine ⟨⟨1, 1⟩, [p], mkCall n [], hmk _, ?_⟩
      rw [allows_call (hmk _) h60]
      exact ⟨p, by simp, .inl hp⟩
    · simp only [argNumbers, List.mem_cons, List.not_mem_nil, or_false] at h
      rcases h with rfl | rfl | rfl | rfl | rfl | rfl | rfl | rfl | rfl | rfl | rfl | rfl | rfl | rfl | rfl | rfl | rfl | rfl
      · exact reach 72 .StdIO (mkCall 72 []) ⟨rfl, rfl⟩ (.fcntl_stdio rfl (by decide))
      · exact reach 9 .StdIO (mkCall 9 []) ⟨rfl, rfl⟩ (.mmap_stdio rfl (by decide) (by simp only [hasNone]; decide))
      · exact reach 10 .StdIO (mkCall 10 []) ⟨rfl, rfl⟩ (.mprotect_stdio rfl (fun i _ => by
          have : arg (mkCall 10 []) 2 = 0#32 := rfl
          rw [this]; simp))
      · exact reach 44 .StdIO (mkCall 44 []) ⟨rfl, rfl⟩ (.sendto_stdio rfl rfl)
      · exact reach 16 .StdIO (mkCall 16 [3, 0x541B]) ⟨rfl, rfl⟩ (.ioctl_stdio rfl (by decide))
      · exact reach 62 .StdIO (mkCall 62 [1]) ⟨rfl, rfl⟩ (.kill_stdio rfl rfl)
      · exact reach 200 .StdIO (mkCall 200 [1]) ⟨rfl, rfl⟩ (.tkill_stdio rfl rfl)
      · exact reach 157 .StdIO (mkCall 157 [15]) ⟨rfl, rfl⟩ (.prctl_stdio rfl (by decide))
      · exact reach 56 .Proc (mkCall 56 []) ⟨rfl, rfl⟩ (.clone_proc rfl (by simp only [hasNone]; decide))
      · exact reach 302 .StdIO (mkCall 302 []) ⟨rfl, rfl⟩ (.prlimit_stdio rfl rfl)
      · exact reach 2 .RPath (mkCall 2 []) ⟨rfl, rfl⟩ (.open_rpath rfl (by decide) (by simp only [hasNone]; decide))
      · exact reach 257 .RPath (mkCall 257 []) ⟨rfl, rfl⟩ (.openat_read _ (by decide) rfl (by decide) (by simp only [hasNone]; decide))
      · exact reach 85 .CPath (mkCall 85 []) ⟨rfl, rfl⟩ (.creat_cpath rfl (by simp only [hasNone]; decide))
      · exact reach 90 .WPath (mkCall 90 []) ⟨rfl, rfl⟩ (.chmod _ (by decide) (.inl rfl) (by simp only [hasNone]; decide))
      · exact reach 91 .WPath (mkCall 91 []) ⟨rfl, rfl⟩ (.chmod _ (by decide) (.inr rfl) (by simp only [hasNone]; decide))
      · exact reach 268 .WPath (mkCall 268 []) ⟨rfl, rfl⟩ (.fchmodat _ (by decide) rfl (by simp only [hasNone]; decide))
      · exact reach 41 .Inet (mkCall 41 [2, 1, 0]) ⟨rfl, rfl⟩
          (.socket_inet _ (by decide) rfl (by decide) (.inl ⟨0, by decide, rfl⟩) (by decide))
      · exact reach 55 .Inet (mkCall 55 [3, 1, 2]) ⟨rfl, rfl⟩ (.getsockopt _ (by decide) rfl (by decide) (by decide))

example : (332 : Nat) ∈ neverAllowed ∧ 217 ∈ neverAllowed ∧ 435 ∈ neverAllowed ∧ 46 ∈ neverAllowed := by decide
example : (231 : Nat) ≤ 446 ∧ 231 ∉ neverAllowed ∧ 302 ∉ neverAllowed := by decide

/-- C70, the consequence for programs: whatever is promised, these calls are denied: sendmsg 46, setsockopt 54, getdents64 217,
clock_settime 227, fallocate 285, sendmmsg 307, statx 332, rseq 334, clone3 435, openat2 437. -/
theorem C70_always_denied (n : Nat) (hn : n ∈ [46, 54, 217, 227, 285, 307, 332, 334, 435, 437]) (ids : Ids) (ps : List Promise)
    (d : SeccompData) (h : IsCall d n) : Denies ids ps d := by
  have hall : ∀ n ∈ [46, 54, 217, 227, 285, 307, 332, 334, 435, 437], freeOf n = [] ∧ n ∉ argNumbers ∧ n ≠ 60 := by decide +kernel
  obtain ⟨h1, h2, h3⟩ := hall n hn
  exact denies_plain h [] h1 h2 h3 (by simp)

example : IsCall (mkCall 332 [3, 0, 0]) 332 := ⟨rfl, rfl⟩

end Props
