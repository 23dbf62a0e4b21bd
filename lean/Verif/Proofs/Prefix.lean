import Verif.Proofs.Check

/-!
# No proper prefix of a generated program passes the kernel's checks
-/
set_option autoImplicit false

namespace Kernel
open Bpfvm Pledge

theorem classicFrom_mid (flen pc : Nat) (pre : List SockFilter) (i : SockFilter) (rest : List SockFilter)
    (h : classicFrom flen pc (pre ++ i :: rest) = true) : instrOK flen (pc + pre.length) i = true := by
  induction pre generalizing pc with
  | nil => simp only [List.nil_append, classicFrom, Bool.and_eq_true] at h; simpa using h.1
  | cons j pre ih =>
    simp only [List.cons_append, classicFrom, Bool.and_eq_true] at h
    have := ih _ h.2
    rwa [List.length_cons, Nat.add_comm pre.length 1, ← Nat.add_assoc]

/-- Every fragment starts with a test of the system call number whose "other call" branch leads to its last instruction or just
behind the fragment; a fragment of more than two instructions does not end in a return. -/
def shape (f : List SockFilter) : Bool :=
  match f with
  | [] => false
  | i :: _ => i.code == 0x15#16 &&
    ((i.jf.toNat == 1 && f.length == 2) || (i.jf.toNat + 2 == f.length && (f.getLast?.map SockFilter.code) == some 0x20#16))

theorem shape_frag (ids : Ids) (f : Filtered) : shape (frag ids f) = true := by cases f <;> rfl

theorem prefix_frag (pre f : List SockFilter) (hs : shape f = true) (m : Nat) (h1 : 1 ≤ m) (h2 : m ≤ f.length) :
    accepts (pre ++ f.take m) = false := by
  cases f with
  | nil => simp [shape] at hs
  | cons i rest =>
    simp only [shape, Bool.and_eq_true, Bool.or_eq_true, beq_iff_eq] at hs
    obtain ⟨hc, hs⟩ := hs
    cases ha : accepts (pre ++ (i :: rest).take m) with
    | false => rfl
    | true =>
      exfalso
      simp only [accepts, Bool.and_eq_true] at ha
      obtain ⟨⟨⟨⟨_, hcl⟩, hret⟩, _⟩, _⟩ := ha
      obtain ⟨m, rfl⟩ : ∃ k, m = k + 1 := ⟨m - 1, by omega⟩
      rw [List.take_succ_cons] at hcl hret
      have hi := classicFrom_mid _ _ _ _ _ hcl
      simp only [instrOK, hc, condJumps, List.mem_cons, Bool.and_eq_true] at hi
      have hi2 := hi.2
      simp only [List.length_cons] at h2
      have hlen : (List.take m rest).length = m := by simp; omega
      simp [hlen] at hi2
      rcases hs with hs | ⟨hs, hl⟩
      · simp only [List.length_cons] at hs; omega
      · simp only [List.length_cons] at hs
        have hm : m = rest.length := by omega
        rw [hm, List.take_length] at hret
        simp only [endsInRet, List.getLast?_append] at hret
        cases hg : (i :: rest).getLast? with
        | none => simp at hg
        | some j =>
          rw [hg] at hl hret
          simp only [Option.map_some, Option.some.injEq, Option.some_or] at hl hret
          rw [hl] at hret
          simp at hret

theorem prefix_body (ids : Ids) (fs : List Filtered) (pre : List SockFilter) (m : Nat) (h1 : 1 ≤ m)
    (h2 : m ≤ (body ids fs).length) : accepts (pre ++ (body ids fs).take m) = false := by
  induction fs generalizing pre m with
  | nil => simp [body] at h2; omega
  | cons f fs ih =>
    have hb : body ids (f :: fs) = frag ids f ++ body ids fs := by simp [body]
    rw [hb] at h2 ⊢
    by_cases hm : m ≤ (frag ids f).length
    · rw [List.take_append_of_le_length hm]
      exact prefix_frag pre _ (shape_frag ids f) m h1 hm
    · rw [List.take_append, List.take_of_length_le (by omega), ← List.append_assoc]
      simp only [List.length_append] at h2
      exact ih _ _ (by omega) (by omega)

theorem accepts_prefix (ids : Ids) (ps : List Promise) (v : BitVec 32) (n : Nat) (h : n < (progOf ids ps v).length) :
    accepts ((progOf ids ps v).take n) = false := by
  unfold progOf at *
  rw [List.append_assoc]
  by_cases hn : n ≤ header.length
  · rw [List.take_append_of_le_length hn]
    have : ∀ k, k ≤ 4 → accepts (header.take k) = false := by decide
    exact this n hn
  · rw [List.take_append, List.take_of_length_le (by omega)]
    simp only [List.length_append, List.length_cons, List.length_nil] at h
    rw [List.take_append_of_le_length (by omega)]
    exact prefix_body ids _ _ _ (by omega) (by omega)

end Kernel
