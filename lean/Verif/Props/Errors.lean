import Verif.Model.Errors

/-!
# C94: the text of an error tells the error
-/
set_option autoImplicit false

namespace Props
open Bpfvm Pledge

theorem digitChar_inj : ∀ m < 16, ∀ n < 16, Nat.digitChar m = Nat.digitChar n → m = n := by decide

theorem toDigits_inj {b : Nat} (hb : 1 < b) (hb' : b ≤ 16) (m n : Nat) (h : Nat.toDigits b m = Nat.toDigits b n) : m = n := by
  induction m using Nat.strongRecOn generalizing n with
  | _ m ih =>
    rw [Nat.toDigits_eq_if hb, Nat.toDigits_eq_if (n := n) hb] at h
    split at h
    · split at h
      · simp only [List.cons.injEq, and_true] at h
        exact digitChar_inj m (by omega) n (by omega) h
      · have := congrArg List.length h
        simp at this
    · split at h
      · have := congrArg List.length h
        simp at this
      · obtain ⟨h1, h2⟩ := List.append_inj' h rfl
        have hq := ih (m / b) (Nat.div_lt_self (by omega) hb) _ h1
        simp only [List.cons.injEq, and_true] at h2
        have hr := digitChar_inj (m % b) (Nat.lt_of_lt_of_le (Nat.mod_lt _ (by omega)) hb') (n % b)
          (Nat.lt_of_lt_of_le (Nat.mod_lt _ (by omega)) hb') h2
        rw [← Nat.div_add_mod m b, ← Nat.div_add_mod n b, hq, hr]

theorem repr_inj {m n : Nat} (h : m.repr = n.repr) : m = n := by
  have := congrArg String.toList h
  rw [Nat.toList_repr, Nat.toList_repr] at this
  exact toDigits_inj (by decide) (by decide) m n this

/-- Digits are made of digits. -/
theorem not_digit {z : Char} (hz : ∀ n < 16, Nat.digitChar n ≠ z) (n : Nat) : z ∉ Nat.toDigits 16 n := by
  induction n using Nat.strongRecOn with
  | _ n ih =>
    rw [Nat.toDigits_eq_if (by decide)]
    split
    · rename_i h
      simp only [List.mem_singleton]
      exact fun h' => hz n h h'.symm
    · intro h
      rcases List.mem_append.1 h with h | h
      · exact ih (n / 16) (Nat.div_lt_self (by omega) (by decide)) h
      · exact hz (n % 16) (Nat.mod_lt _ (by decide)) (List.mem_singleton.1 h).symm

theorem brace_not_digit (n : Nat) : '}' ∉ Nat.toDigits 16 n := not_digit (by decide) n

/-- Two texts up to the first `z` agree. -/
theorem split_at {z : Char} {a b x y : List Char} (ha : z ∉ a) (hb : z ∉ b) (h : a ++ z :: x = b ++ z :: y) : a = b ∧ x = y := by
  induction a generalizing b with
  | nil =>
    cases b with
    | nil => simpa using h
    | cons c b =>
      simp only [List.nil_append, List.cons_append, List.cons.injEq] at h
      exact absurd (by rw [← h.1]; simp) hb
  | cons c a ih =>
    cases b with
    | nil =>
      simp only [List.nil_append, List.cons_append, List.cons.injEq] at h
      exact absurd (by rw [h.1]; simp) ha
    | cons d b =>
      simp only [List.cons_append, List.cons.injEq] at h
      obtain ⟨e1, e2⟩ := ih (fun h' => ha (List.mem_cons_of_mem _ h')) (fun h' => hb (List.mem_cons_of_mem _ h')) h.2
      exact ⟨by rw [h.1, e1], e2⟩

/-- The forms of an escaped character. -/
theorem escape_cases (plain : Char → Bool) (c : Char) :
    (escape plain c = ['\\', '0'] ∧ c = '\x00') ∨ (escape plain c = ['\\', 't'] ∧ c = '\t') ∨ (escape plain c = ['\\', 'r'] ∧ c = '\r') ∨
    (escape plain c = ['\\', 'n'] ∧ c = '\n') ∨ (escape plain c = ['\\', '"'] ∧ c = '"') ∨ (escape plain c = ['\\', '\\'] ∧ c = '\\') ∨
    (escape plain c = [c] ∧ c ≠ '\\') ∨ (escape plain c = '\\' :: 'u' :: '{' :: (Nat.toDigits 16 c.toNat ++ ['}'])) := by
  unfold escape
  repeat' split
  all_goals simp_all

theorem escape_inj (plain : Char → Bool) (c d : Char) (x y : List Char) (h : escape plain c ++ x = escape plain d ++ y) : c = d ∧ x = y := by
  rcases escape_cases plain c with ⟨h1, hc⟩ | ⟨h1, hc⟩ | ⟨h1, hc⟩ | ⟨h1, hc⟩ | ⟨h1, hc⟩ | ⟨h1, hc⟩ | ⟨h1, hc⟩ | h1 <;>
    rcases escape_cases plain d with ⟨h2, hd⟩ | ⟨h2, hd⟩ | ⟨h2, hd⟩ | ⟨h2, hd⟩ | ⟨h2, hd⟩ | ⟨h2, hd⟩ | ⟨h2, hd⟩ | h2 <;>
    rw [h1, h2] at h <;>
    simp only [List.cons_append, List.nil_append, List.cons.injEq, List.append_assoc, true_and] at h <;>
    first
      | exact ⟨by rw [hc, hd], h⟩
      | exact h
      | exact absurd h.1 (by decide)
      | exact absurd h.1.symm hd
      | exact absurd h.1 hc
      | exact absurd h.1.symm hc
      | exact absurd h.1 hd
      | (obtain ⟨e1, e2⟩ := split_at (brace_not_digit _) (brace_not_digit _) h
         refine ⟨?_, e2⟩
         have := toDigits_inj (by decide) (by decide) _ _ e1
         exact Char.toNat_inj.1 this)

theorem escape_pos (plain : Char → Bool) (c : Char) : escape plain c ≠ [] := by
  rcases escape_cases plain c with ⟨h1, hc⟩ | ⟨h1, hc⟩ | ⟨h1, hc⟩ | ⟨h1, hc⟩ | ⟨h1, hc⟩ | ⟨h1, hc⟩ | ⟨h1, hc⟩ | h1 <;> rw [h1] <;> simp

theorem escapes_inj (plain : Char → Bool) (a b : List Char) (h : (a.map (escape plain)).flatten = (b.map (escape plain)).flatten) : a = b := by
  induction a generalizing b with
  | nil =>
    cases b with
    | nil => rfl
    | cons d b =>
      simp only [List.map_nil, List.flatten_nil, List.map_cons, List.flatten_cons] at h
      exact absurd (List.append_eq_nil_iff.1 h.symm).1 (escape_pos _ _)
  | cons c a ih =>
    cases b with
    | nil =>
      simp only [List.map_nil, List.flatten_nil, List.map_cons, List.flatten_cons] at h
      exact absurd (List.append_eq_nil_iff.1 h).1 (escape_pos _ _)
    | cons d b =>
      simp only [List.map_cons, List.flatten_cons] at h
      obtain ⟨e1, e2⟩ := escape_inj plain c d _ _ h
      rw [e1, ih b e2]

theorem debugString_inj (plain : Char → Bool) (a b : String) (h : debugString plain a = debugString plain b) : a = b := by
  have h := congrArg String.toList h
  simp only [debugString, String.toList_append, String.toList_ofList] at h
  have h := List.append_cancel_right h
  have h := List.append_cancel_left h
  exact String.toList_injective (escapes_inj plain _ _ h)

theorem str_last (a s : String) (h : s.toList ≠ []) : (a ++ s).toList.getLast? = s.toList.getLast? := by
  rw [String.toList_append, List.getLast?_append]
  cases h' : s.toList.getLast? with
  | none => exact absurd (List.getLast?_eq_none_iff.1 h') h
  | some c => rfl

theorem str_take (p x : String) (k : Nat) (h : k ≤ p.toList.length) : (p ++ x).toList.take k = p.toList.take k := by
  rw [String.toList_append, List.take_append_of_le_length h]

/-- The first 17 letters of the text of an error of bpfvm. -/
def start17 : Error → List Char
  | .ProgramTooLong _ => "Program len is bi".toList
  | .InvalidInstructionCode _ => "Unsupported BPF i".toList
  | .UnsupportedInstruction _ => "Unsupported BPF I".toList
  | .UnsupportedReturn _ => "Unsupported Retur".toList
  | .UnsupportedDataOffset => "Unsupported ABS o".toList
  | .UnknownInstruction _ => "Unknown BPF Instr".toList
  | .UnknownLabelReference _ => "Unknown label ref".toList

theorem bpf_start (plain : Char → Bool) (e : Error) : (bpfMessage plain e).toList.take 17 = start17 e := by
  cases e <;> unfold bpfMessage <;> dsimp only
  case UnsupportedDataOffset => decide +kernel
  all_goals
    rw [String.append_assoc, str_take _ _ _ (by decide +kernel)]
    unfold start17
    dsimp only
    decide +kernel

theorem str_cancel_left {a b c : String} (h : a ++ b = a ++ c) : b = c := by
  have := congrArg String.toList h
  simp only [String.toList_append] at this
  exact String.toList_injective (List.append_cancel_left this)

theorem str_cancel_right {a b c : String} (h : b ++ a = c ++ a) : b = c := by
  have := congrArg String.toList h
  simp only [String.toList_append] at this
  exact String.toList_injective (List.append_cancel_right this)

/-- C94: two errors of bpfvm with the same text are the same error. -/
theorem C94_bpf_distinct (plain : Char → Bool) (e e' : Error) (h : bpfMessage plain e = bpfMessage plain e') : e = e' := by
  have hs : start17 e = start17 e' := by rw [← bpf_start plain, ← bpf_start plain, h]
  unfold bpfMessage at h
  cases e <;> cases e' <;> try exact absurd hs (by unfold start17; dsimp only; decide +kernel)
  all_goals dsimp only at h
  case ProgramTooLong.ProgramTooLong => rw [repr_inj (str_cancel_left (str_cancel_right h))]
  case InvalidInstructionCode.InvalidInstructionCode => rw [BitVec.toNat_inj.1 (repr_inj (str_cancel_left (str_cancel_right h)))]
  case UnsupportedInstruction.UnsupportedInstruction => rw [BitVec.toNat_inj.1 (repr_inj (str_cancel_left (str_cancel_right h)))]
  case UnsupportedReturn.UnsupportedReturn => rw [BitVec.toNat_inj.1 (repr_inj (str_cancel_left (str_cancel_right h)))]
  case UnsupportedDataOffset.UnsupportedDataOffset => rfl
  case UnknownInstruction.UnknownInstruction => rw [BitVec.toNat_inj.1 (repr_inj (str_cancel_left (str_cancel_right h)))]
  case UnknownLabelReference.UnknownLabelReference => rw [debugString_inj plain _ _ (str_cancel_left (str_cancel_right h))]

theorem promise_debug_inj (p q : Promise) (h : p.debug = q.debug) : p = q := by
  cases p <;> cases q <;> first | rfl | (exact absurd h (by decide +kernel))

/-- The texts of errors of bpfvm end with a full stop and do not begin with "Promise". -/
theorem bpf_dot (plain : Char → Bool) (e : Error) : (bpfMessage plain e).toList.getLast? = some '.' := by
  cases e <;> unfold bpfMessage <;> dsimp only
  case UnsupportedDataOffset => decide +kernel
  all_goals exact str_last _ "." (by decide +kernel)

/-- C94: two errors of pledge with the same text are the same error, whatever the descriptions of error numbers are: the text tells the
promise, the error number, the label or the code. -/
theorem C94_distinct (strerror : Nat → String) (plain : Char → Bool) (e e' : PledgeError)
    (h : message strerror plain e = message strerror plain e') : e = e' := by
  have sys : ∀ n e', (∀ m, e' ≠ .SysErr m) → message strerror plain (.SysErr n) ≠ message strerror plain e' := by
    intro n e' hn h
    have h1 : (message strerror plain (.SysErr n)).toList.getLast? = some ')' := str_last _ ")" (by decide +kernel)
    have h2 : (message strerror plain e').toList.getLast? = some '.' := by
      cases e' with
      | SysErr m => exact absurd rfl (hn m)
      | UndefinedPromise p => exact (str_last _ " is not implemented." (by decide +kernel)).trans (by decide +kernel)
      | BPFErr e => exact bpf_dot plain e
    rw [h, h2] at h1
    exact absurd h1 (by decide +kernel)
  have und : ∀ p e, message strerror plain (.UndefinedPromise p) ≠ message strerror plain (.BPFErr e) := by
    intro p e h
    have h1 : (message strerror plain (.UndefinedPromise p)).toList.take 4 = "Prom".toList := by
      unfold message
      dsimp only
      rw [String.append_assoc, str_take _ _ _ (by decide +kernel)]
      decide +kernel
    have h2 : (message strerror plain (.BPFErr e)).toList.take 4 = (start17 e).take 4 := by
      rw [← bpf_start plain, List.take_take]
      rfl
    rw [h, h2] at h1
    cases e <;> exact absurd h1 (by unfold start17; dsimp only; decide +kernel)
  have num : ∀ m n, message strerror plain (.SysErr m) = message strerror plain (.SysErr n) → m = n := by
    intro m n h
    unfold message at h
    dsimp only at h
    have h := congrArg String.toList (str_cancel_right h)
    simp only [String.toList_append, Nat.toList_repr] at h
    -- the digits are what follows the last blank
    have key : ∀ k, ' ' ∉ Nat.toDigits 10 k := by
      intro k hk
      have := Nat.isDigit_of_mem_toDigits (by decide +kernel) (by decide +kernel) hk
      exact absurd this (by decide +kernel)
    have after : ∀ (a : List Char) k, (a ++ " (os error ".toList ++ Nat.toDigits 10 k).reverse.takeWhile (· ≠ ' ') = (Nat.toDigits 10 k).reverse := by
      intro a k
      have h1 : (a ++ " (os error ".toList ++ Nat.toDigits 10 k).reverse = (Nat.toDigits 10 k).reverse ++ (" (os error ".toList.reverse ++ a.reverse) := by
        simp
      rw [h1, List.takeWhile_append_of_pos (by
        intro c hc
        have : c ≠ ' ' := fun h => key k (by rw [← h]; exact List.mem_reverse.1 hc)
        simpa using this)]
      simp
    have h := congrArg (fun l => l.reverse.takeWhile (· ≠ ' ')) h
    simp only [after] at h
    exact toDigits_inj (b := 10) (by decide +kernel) (by decide +kernel) m n (by simpa using h)
  cases e with
  | UndefinedPromise p =>
    cases e' with
    | UndefinedPromise q =>
      unfold message at h
      dsimp only at h
      rw [promise_debug_inj p q (str_cancel_left (str_cancel_right h))]
    | SysErr n => exact absurd h.symm (sys n _ (by simp))
    | BPFErr e => exact absurd h (und p e)
  | SysErr n =>
    cases e' with
    | SysErr m => rw [num n m h]
    | UndefinedPromise p => exact absurd h (sys n _ (by simp))
    | BPFErr e => exact absurd h (sys n _ (by simp))
  | BPFErr e =>
    cases e' with
    | BPFErr e' => rw [C94_bpf_distinct plain e e' h]
    | UndefinedPromise p => exact absurd h.symm (und p e)
    | SysErr n => exact absurd h.symm (sys n _ (by simp))

theorem escape_no_quote (plain : Char → Bool) (c : Char) (x r : List Char) : escape plain c ++ x ≠ '"' :: r := by
  unfold escape
  intro h
  repeat' split at h
  all_goals simp only [List.cons_append, List.nil_append, List.cons.injEq] at h
  all_goals first | exact absurd h.1 (by decide) | simp_all

/-- An escaped text ends at the first quote that is not escaped. -/
theorem escapes_end (plain : Char → Bool) (a b x y : List Char)
    (h : (a.map (escape plain)).flatten ++ '"' :: x = (b.map (escape plain)).flatten ++ '"' :: y) : a = b ∧ x = y := by
  induction a generalizing b with
  | nil =>
    cases b with
    | nil => exact ⟨rfl, by simpa using h⟩
    | cons d b =>
      simp only [List.map_nil, List.flatten_nil, List.map_cons, List.flatten_cons, List.nil_append, List.append_assoc] at h
      exact absurd h.symm (escape_no_quote _ _ _ _)
  | cons c a ih =>
    cases b with
    | nil =>
      simp only [List.map_nil, List.flatten_nil, List.map_cons, List.flatten_cons, List.nil_append, List.append_assoc] at h
      exact absurd h (escape_no_quote _ _ _ _)
    | cons d b =>
      simp only [List.map_cons, List.flatten_cons, List.append_assoc] at h
      obtain ⟨e1, e2⟩ := escape_inj plain c d _ _ h
      obtain ⟨e3, e4⟩ := ih b e2
      exact ⟨by rw [e1, e3], e4⟩

theorem dot_not_digit (n : Nat) : '.' ∉ Nat.toDigits 10 n := fun h =>
  absurd (Nat.isDigit_of_mem_toDigits (by decide) (by decide) h) (by decide)

theorem number_end {p r r' : String} {m n : Nat} (h : p ++ m.repr ++ "." ++ r = p ++ n.repr ++ "." ++ r') : m = n ∧ r = r' := by
  simp only [String.append_assoc] at h
  have h := congrArg String.toList (str_cancel_left h)
  simp only [String.toList_append, Nat.toList_repr] at h
  obtain ⟨h1, h2⟩ := split_at (dot_not_digit m) (dot_not_digit n) h
  exact ⟨toDigits_inj (by decide) (by decide) m n h1, String.toList_injective h2⟩

/-- C94: the text of an error of bpfvm says where it ends, whatever follows it and whatever label it quotes. So a text in which errors
stand one behind the other can be read in only one way. -/
theorem C94_bpf_delimited (plain : Char → Bool) (e e' : Error) (r r' : String) (h : bpfMessage plain e ++ r = bpfMessage plain e' ++ r') :
    e = e' ∧ r = r' := by
  have len : ∀ e, 17 ≤ (bpfMessage plain e).toList.length := by
    intro e
    have := congrArg List.length (bpf_start plain e)
    rw [List.length_take] at this
    have h17 : (start17 e).length = 17 := by cases e <;> (unfold start17; dsimp only; decide +kernel)
    omega
  have hs : start17 e = start17 e' := by
    rw [← bpf_start plain, ← bpf_start plain, ← str_take _ r 17 (len e), ← str_take _ r' 17 (len e'), h]
  unfold bpfMessage at h
  cases e <;> cases e' <;> try exact absurd hs (by unfold start17; dsimp only; decide +kernel)
  all_goals dsimp only at h
  case ProgramTooLong.ProgramTooLong => obtain ⟨h1, h2⟩ := number_end h; exact ⟨by rw [h1], h2⟩
  case InvalidInstructionCode.InvalidInstructionCode => obtain ⟨h1, h2⟩ := number_end h; exact ⟨by rw [BitVec.toNat_inj.1 h1], h2⟩
  case UnsupportedInstruction.UnsupportedInstruction => obtain ⟨h1, h2⟩ := number_end h; exact ⟨by rw [BitVec.toNat_inj.1 h1], h2⟩
  case UnsupportedReturn.UnsupportedReturn => obtain ⟨h1, h2⟩ := number_end h; exact ⟨by rw [BitVec.toNat_inj.1 h1], h2⟩
  case UnsupportedDataOffset.UnsupportedDataOffset => exact ⟨rfl, str_cancel_left h⟩
  case UnknownInstruction.UnknownInstruction => obtain ⟨h1, h2⟩ := number_end h; exact ⟨by rw [BitVec.toNat_inj.1 h1], h2⟩
  case UnknownLabelReference.UnknownLabelReference l l' =>
    unfold debugString at h
    simp only [String.append_assoc] at h
    have h := congrArg String.toList (str_cancel_left (str_cancel_left h))
    simp only [String.toList_append, String.toList_ofList] at h
    obtain ⟨h1, h2⟩ := escapes_end plain _ _ _ _ h
    exact ⟨by rw [String.toList_injective h1], String.toList_injective (List.append_cancel_left (as := ".".toList) h2)⟩

theorem escape_line (plain : Char → Bool) (c x : Char) (hx : x = '\n' ∨ x = '\r' ∨ x = '\x00') : x ∉ escape plain c := by
  have hd : ∀ n, x ∉ Nat.toDigits 16 n := by rcases hx with rfl | rfl | rfl <;> exact not_digit (by decide)
  unfold escape
  repeat' split
  all_goals first
    | (rcases hx with rfl | rfl | rfl <;> decide)
    | (simp only [List.mem_singleton]
       rcases hx with rfl | rfl | rfl <;> exact fun h => absurd h.symm (by assumption))
    | (intro h
       rcases List.mem_append.1 h with h | h
       rcases List.mem_append.1 h with h | h
       · rcases hx with rfl | rfl | rfl <;> exact absurd h (by decide)
       · exact hd _ h
       · rcases hx with rfl | rfl | rfl <;> exact absurd h (by decide))

/-- C94: no label, however malicious, breaks the line: the text of an error of bpfvm contains no line feed, carriage return or NUL. -/
theorem C94_one_line (plain : Char → Bool) (e : Error) (x : Char) (hx : x = '\n' ∨ x = '\r' ∨ x = '\x00') :
    x ∉ (bpfMessage plain e).toList := by
  have num : ∀ n : Nat, x ∉ n.repr.toList := by
    intro n h
    rw [Nat.toList_repr] at h
    have := Nat.isDigit_of_mem_toDigits (by decide) (by decide) h
    rcases hx with rfl | rfl | rfl <;> exact absurd this (by decide)
  have label : ∀ l : String, x ∉ (debugString plain l).toList := by
    intro l
    unfold debugString
    simp only [String.toList_append, String.toList_ofList, List.mem_append, not_or, List.mem_flatten, List.mem_map]
    refine ⟨⟨?_, ?_⟩, ?_⟩
    · rcases hx with rfl | rfl | rfl <;> decide
    · rintro ⟨_, ⟨c, _, rfl⟩, h⟩
      exact escape_line plain c x hx h
    · rcases hx with rfl | rfl | rfl <;> decide
  have three : ∀ p q : String, x ∉ p.toList → x ∉ q.toList → x ∉ (p ++ q ++ ".").toList := by
    intro p q hp hq
    simp only [String.toList_append, List.mem_append, not_or]
    exact ⟨⟨hp, hq⟩, by rcases hx with rfl | rfl | rfl <;> decide +kernel⟩
  cases e with
  | UnsupportedDataOffset => unfold bpfMessage; dsimp only; rcases hx with rfl | rfl | rfl <;> decide +kernel
  | UnknownLabelReference l => exact three _ _ (by rcases hx with rfl | rfl | rfl <;> decide +kernel) (label l)
  | ProgramTooLong n => exact three _ _ (by rcases hx with rfl | rfl | rfl <;> decide +kernel) (num _)
  | InvalidInstructionCode n => exact three _ _ (by rcases hx with rfl | rfl | rfl <;> decide +kernel) (num _)
  | UnsupportedInstruction n => exact three _ _ (by rcases hx with rfl | rfl | rfl <;> decide +kernel) (num _)
  | UnsupportedReturn n => exact three _ _ (by rcases hx with rfl | rfl | rfl <;> decide +kernel) (num _)
  | UnknownInstruction n => exact three _ _ (by rcases hx with rfl | rfl | rfl <;> decide +kernel) (num _)

/-- C94: a label made to look like the end of the text and another error does not do so. -/
example : bpfMessage (fun _ => true) (.UnknownLabelReference "a\".\nUnsupported ABS offset type.") =
    "Unknown label reference; \"a\\\".\\nUnsupported ABS offset type.\"." := by decide +kernel

/-- Some texts. -/
example : message (fun _ => "Cannot allocate memory") (fun _ => true) (.SysErr 12) = "Cannot allocate memory (os error 12)" ∧
    message (fun _ => "") (fun _ => true) (.UndefinedPromise .StdIO) = "Promise StdIO is not implemented." ∧
    message (fun _ => "") (fun _ => true) (.BPFErr (.UnsupportedReturn 0x7ffd0000)) = "Unsupported Return value; 2147287040." ∧
    message (fun _ => "") (fun c => c ≠ '\x07') (.BPFErr (.UnknownLabelReference "a\"b\n\x07")) =
      "Unknown label reference; \"a\\\"b\\n\\u{7}\"." := by decide +kernel

end Props
