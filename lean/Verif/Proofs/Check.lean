import Verif.Proofs.KernelEv

/-!
# The kernel's checks on generated programs
-/
set_option autoImplicit false

namespace Kernel
open Bpfvm Pledge

/-- The instruction forms the library uses, with jumps that stay within the following `room` instructions or land just
behind them. -/
def plain (room : Nat) (i : SockFilter) : Bool :=
  (i.code == 0x20#16 && decide (i.k.toNat < 64) && decide (i.k.toNat % 4 = 0)) ||
  ((i.code == 0x15#16 || i.code == 0x25#16) && decide (i.jt.toNat ≤ room) && decide (i.jf.toNat ≤ room)) ||
  (i.code == 0x05#16 && decide (i.k.toNat ≤ room)) ||
  i.code == 0x54#16 || i.code == 0x06#16

def plainAll : List SockFilter → Bool
  | [] => true
  | i :: rest => plain rest.length i && plainAll rest

theorem plain_mono {room room' : Nat} {i : SockFilter} (h : plain room i = true) (hr : room ≤ room') :
    plain room' i = true := by
  simp only [plain, Bool.or_eq_true, Bool.and_eq_true, beq_iff_eq, decide_eq_true_eq] at *
  rcases h with (((h | ⟨⟨h, h1⟩, h2⟩) | ⟨h, h1⟩) | h) | h
  · exact .inl (.inl (.inl (.inl h)))
  · exact .inl (.inl (.inl (.inr ⟨⟨h, by omega⟩, by omega⟩)))
  · exact .inl (.inl (.inr ⟨h, by omega⟩))
  · exact .inl (.inr h)
  · exact .inr h

theorem plainAll_append {f g : List SockFilter} (hf : plainAll f = true) (hg : plainAll g = true) :
    plainAll (f ++ g) = true := by
  induction f with
  | nil => simpa
  | cons i rest ih =>
    simp only [List.cons_append, plainAll, Bool.and_eq_true] at *
    exact ⟨plain_mono hf.1 (by simp), ih hf.2⟩

theorem plain_code {room : Nat} {i : SockFilter} (h : plain room i = true) :
    i.code ∈ [0x20#16, 0x15#16, 0x25#16, 0x05#16, 0x54#16, 0x06#16] := by
  simp only [plain, Bool.or_eq_true, Bool.and_eq_true, beq_iff_eq, decide_eq_true_eq] at h
  simp only [List.mem_cons, List.not_mem_nil, or_false]
  rcases h with (((h | ⟨⟨h | h, _⟩, _⟩) | ⟨h, _⟩) | h) | h
  · simp [h.1.1]
  all_goals simp [h]

theorem plain_seccomp {room : Nat} {i : SockFilter} (h : plain room i = true) : seccompInstrOK i = true := by
  unfold seccompInstrOK
  by_cases hc : i.code = 0x20#16
  · rw [if_pos hc]
    simp only [plain, hc] at h
    simpa using h
  · rw [if_neg hc]
    have := plain_code h
    simp only [List.mem_cons, List.not_mem_nil, or_false] at this
    rcases this with h | h | h | h | h | h <;> simp_all [condJumps]

theorem plain_classic (flen pc room : Nat) (i : SockFilter) (h : plain room i = true) (hl : flen = pc + 1 + room + 1) :
    instrOK flen pc i = true := by
  have hc := plain_code h
  simp only [List.mem_cons, List.not_mem_nil, or_false] at hc
  obtain ⟨code, jt, jf, k⟩ := i
  simp only at hc
  rcases hc with rfl | rfl | rfl | rfl | rfl | rfl <;> simp [plain] at h <;>
    simp [instrOK, classicCodes, condJumps] <;> omega

theorem classicFrom_plain (l : List SockFilter) (t : SockFilter) (ht : t.code = 0x06#16) (pc flen : Nat)
    (hp : plainAll l = true) (hl : flen = pc + l.length + 1) : classicFrom flen pc (l ++ [t]) = true := by
  induction l generalizing pc with
  | nil => simp [classicFrom, instrOK, ht, classicCodes, condJumps]
  | cons i rest ih =>
    simp only [plainAll, Bool.and_eq_true] at hp
    simp only [List.length_cons] at hl
    simp only [List.cons_append, classicFrom, Bool.and_eq_true]
    exact ⟨plain_classic _ _ rest.length _ hp.1 (by omega), ih _ hp.2 (by omega)⟩

theorem memFrom_plain (l : List SockFilter) (hp : ∀ i ∈ l, i.code ∈ [0x20#16, 0x15#16, 0x25#16, 0x05#16, 0x54#16, 0x06#16])
    (pc : Nat) (masks : Nat → BitVec 16) (mv : BitVec 16) : memFrom pc masks mv l = true := by
  induction l generalizing pc masks mv with
  | nil => rfl
  | cons i rest ih =>
    have hr := ih (fun j hj => hp j (by simp [hj]))
    have := hp i (by simp)
    simp only [List.mem_cons, List.not_mem_nil, or_false] at this
    rcases this with h | h | h | h | h | h <;> simp [memFrom, h, condJumps, hr]

theorem plainAll_codes {l : List SockFilter} (h : plainAll l = true) :
    ∀ i ∈ l, i.code ∈ [0x20#16, 0x15#16, 0x25#16, 0x05#16, 0x54#16, 0x06#16] := by
  induction l with
  | nil => simp
  | cons j rest ih =>
    simp only [plainAll, Bool.and_eq_true] at h
    intro i hi
    simp only [List.mem_cons] at hi
    rcases hi with rfl | hi
    · exact plain_code h.1
    · exact ih h.2 i hi

theorem plainAll_seccomp {l : List SockFilter} (h : plainAll l = true) : l.all seccompInstrOK = true := by
  induction l with
  | nil => rfl
  | cons j rest ih =>
    simp only [plainAll, Bool.and_eq_true] at h
    simp only [List.all_cons, Bool.and_eq_true]
    exact ⟨plain_seccomp h.1, ih h.2⟩

theorem accepts_plain (l : List SockFilter) (hp : plainAll l = true) (v : BitVec 32) :
    accepts (l ++ [⟨0x06, 0, 0, v⟩]) = decide (l.length + 1 ≤ maxInsns) := by
  have h1 : classicFrom (l.length + (0 + 1)) 0 (l ++ [⟨0x06, 0, 0, v⟩]) = true :=
    classicFrom_plain l _ rfl 0 _ hp (by omega)
  have h2 : memFrom 0 (fun _ => ~~~0) 0 (l ++ [⟨0x06, 0, 0, v⟩]) = true := by
    apply memFrom_plain
    intro i hi
    simp only [List.mem_append, List.mem_singleton] at hi
    rcases hi with hi | rfl
    · exact plainAll_codes hp i hi
    · simp
  have h3 : (l ++ [(⟨0x06, 0, 0, v⟩ : SockFilter)]).all seccompInstrOK = true := by
    rw [List.all_append, plainAll_seccomp hp]
    simp [seccompInstrOK]
  have h4 : endsInRet (l ++ [⟨0x06, 0, 0, v⟩]) = true := by simp [endsInRet]
  simp only [accepts, h1, h2, h3, h4, List.length_append, List.length_cons, List.length_nil]
  simp

theorem plainAll_frag (ids : Ids) (f : Filtered) : plainAll (frag ids f) = true := by
  cases f <;> rfl

theorem plainAll_body (ids : Ids) (fs : List Filtered) : plainAll (body ids fs) = true := by
  induction fs with
  | nil => rfl
  | cons f fs ih =>
    have hb : body ids (f :: fs) = frag ids f ++ body ids fs := by simp [body]
    rw [hb]; exact plainAll_append (plainAll_frag ids f) ih

theorem plainAll_header : plainAll header = true := by rfl

theorem accepts_progOf (ids : Ids) (ps : List Promise) (v : BitVec 32) :
    accepts (progOf ids ps v) = decide ((progOf ids ps v).length ≤ maxInsns) := by
  unfold progOf
  rw [accepts_plain _ (plainAll_append plainAll_header (plainAll_body ids _))]
  rw [List.length_append (bs := [_])]
  rfl

/-! ## lengths -/

/-- Number of instructions of a filter fragment. -/
def fragLen : Filtered → Nat := fun f => (frag ⟨0, 0⟩ f).length

theorem frag_length (ids : Ids) (f : Filtered) : (frag ids f).length = fragLen f := by
  cases f <;> rfl

/-- Number of instructions a promise contributes. -/
def promiseLen (p : Promise) : Nat := ((filtersOf p).map fragLen).sum

theorem body_length (ids : Ids) (fs : List Filtered) : (body ids fs).length = (fs.map fragLen).sum := by
  induction fs with
  | nil => rfl
  | cons f fs ih => simp [body, List.length_flatten, frag_length] at *; omega

theorem sum_flatten_map {α : Type} (g : α → Nat) (ls : List (List α)) :
    (ls.flatten.map g).sum = (ls.map fun l => (l.map g).sum).sum := by
  induction ls with
  | nil => rfl
  | cons l ls ih => rw [List.flatten_cons, List.map_append, List.sum_append, ih]; rfl

theorem progOf_length (ids : Ids) (ps : List Promise) (v : BitVec 32) :
    (progOf ids ps v).length = 5 + promiseLen .Default + (ps.map promiseLen).sum := by
  have h : promiseLen = fun p => ((filtersOf p).map fragLen).sum := rfl
  simp only [progOf, List.length_append, body_length, allFilters, sum_flatten_map, List.map_map, List.map_cons, List.sum_cons,
    header, List.length_cons, List.length_nil, h, Function.comp_def]
  omega

end Kernel
