import Verif.Spec.Looks
import Verif.Props.Vm

/-!
# C92: what a run of the VM depends on
-/
set_option autoImplicit false

namespace Props
open Bpfvm Spec

/-! ### Fields of an instruction code -/

theorem code_fields (c : BitVec 16) :
    (∀ n, n < 8 → ((c &&& 0x7#16) = BitVec.ofNat 16 n ↔ c.toNat % 8 = n)) ∧
    (∀ n, n < 4 → ((c &&& 0x18#16) = BitVec.ofNat 16 (8 * n) ↔ c.toNat / 8 % 4 = n)) ∧
    (∀ n, n < 8 → ((c &&& 0xe0#16) = BitVec.ofNat 16 (32 * n) ↔ c.toNat / 32 % 8 = n)) := by
  have e1 : (c &&& 0x7#16).toNat = c.toNat % 8 := by
    rw [BitVec.toNat_and]
    exact Nat.and_two_pow_sub_one_eq_mod c.toNat 3
  have e2 : (c &&& 0x18#16).toNat = 8 * (c.toNat / 8 % 4) := by
    rw [BitVec.toNat_and]
    apply Nat.eq_of_testBit_eq
    intro i
    rw [show 8 * (c.toNat / 8 % 4) = (c.toNat / 2 ^ 3 % 2 ^ 2) * 2 ^ 3 by omega, ← Nat.shiftRight_eq_div_pow, ← Nat.shiftLeft_eq]
    simp only [Nat.testBit_and, Nat.testBit_shiftLeft, Nat.testBit_mod_two_pow, Nat.testBit_shiftRight]
    have h18 : (BitVec.toNat 0x18#16).testBit i = (decide (3 ≤ i) && decide (i < 5)) := by
      by_cases h : i < 16
      · have : ∀ i : Fin 16, (BitVec.toNat 0x18#16).testBit i = (decide (3 ≤ i.val) && decide (i.val < 5)) := by decide
        exact this ⟨i, h⟩
      · rw [Nat.testBit_lt_two_pow (Nat.lt_of_lt_of_le (show BitVec.toNat 0x18#16 < 2 ^ 16 by decide) (Nat.pow_le_pow_right (by decide) (by omega)))]
        simp; omega
    rw [h18]
    by_cases h3 : 3 ≤ i
    · rw [show 3 + (i - 3) = i by omega]
      by_cases h5 : i < 5
      · simp [h3, h5]; omega
      · simp [h3, h5]; omega
    · simp [h3]
  have e3 : (c &&& 0xe0#16).toNat = 32 * (c.toNat / 32 % 8) := by
    rw [BitVec.toNat_and]
    apply Nat.eq_of_testBit_eq
    intro i
    rw [show 32 * (c.toNat / 32 % 8) = (c.toNat / 2 ^ 5 % 2 ^ 3) * 2 ^ 5 by omega, ← Nat.shiftRight_eq_div_pow, ← Nat.shiftLeft_eq]
    simp only [Nat.testBit_and, Nat.testBit_shiftLeft, Nat.testBit_mod_two_pow, Nat.testBit_shiftRight]
    have h18 : (BitVec.toNat 0xe0#16).testBit i = (decide (5 ≤ i) && decide (i < 8)) := by
      by_cases h : i < 16
      · have : ∀ i : Fin 16, (BitVec.toNat 0xe0#16).testBit i = (decide (5 ≤ i.val) && decide (i.val < 8)) := by decide
        exact this ⟨i, h⟩
      · rw [Nat.testBit_lt_two_pow (Nat.lt_of_lt_of_le (show BitVec.toNat 0xe0#16 < 2 ^ 16 by decide) (Nat.pow_le_pow_right (by decide) (by omega)))]
        simp; omega
    rw [h18]
    by_cases h3 : 5 ≤ i
    · rw [show 5 + (i - 5) = i by omega]
      by_cases h5 : i < 8
      · simp [h3, h5]; omega
      · simp [h3, h5]; omega
    · simp [h3]
  refine ⟨fun n hn => ?_, fun n hn => ?_, fun n hn => ?_⟩
  · rw [← BitVec.toNat_inj, e1, BitVec.toNat_ofNat]; omega
  · rw [← BitVec.toNat_inj, e2, BitVec.toNat_ofNat]; omega
  · rw [← BitVec.toNat_inj, e3, BitVec.toNat_ofNat]; omega

theorem cls_eq (c : BitVec 16) (n : Nat) (hn : n < 8) (h : c.toNat % 8 = n) : (c &&& 0x7#16) = BitVec.ofNat 16 n :=
  ((code_fields c).1 n hn).2 h
theorem size_eq (c : BitVec 16) (n : Nat) (hn : n < 4) (h : c.toNat / 8 % 4 = n) : (c &&& 0x18#16) = BitVec.ofNat 16 (8 * n) :=
  ((code_fields c).2.1 n hn).2 h
theorem mode_eq (c : BitVec 16) (n : Nat) (hn : n < 8) (h : c.toNat / 32 % 8 = n) : (c &&& 0xe0#16) = BitVec.ofNat 16 (32 * n) :=
  ((code_fields c).2.2 n hn).2 h

/-- A word is fetched. -/
theorem execute_word (b : Build) (data : RunData) (vm : VM) (w : Nat) (x : BitVec 32) (h : nextLook b vm = some (.word w))
    (hx : data[w]? = some x) : vm.execute b data = ({ vm with pc := vm.pc + 1, acc := x }, .ok none) := by
  unfold nextLook at h
  unfold VM.execute
  cases hi : vm.prog[vm.pc]? with
  | none => rw [hi] at h; cases h
  | some i =>
    rw [hi] at h
    simp only at h ⊢
    rw [executeInstr_eq]
    split at h
    · cases h
    · split at h
      · rename_i hc
        injection h with h
        injection h with h
        have c1 : (i.code &&& 0x7#16) = 0x00#16 := cls_eq _ 0 (by decide) hc.1
        have c2 : (i.code &&& 0x18#16) = 0x00#16 := size_eq _ 0 (by decide) hc.2.1
        have c3 : (i.code &&& 0xe0#16) = 0x20#16 := mode_eq _ 1 (by decide) hc.2.2
        rw [if_pos c1, ldValue_eq, c3, if_neg (by decide), if_pos rfl, fetchData_eq, if_pos c2]
        unfold fetchU32
        rw [h, hx]
      · split at h
        · rename_i hc
          injection h with h
          injection h with h
          have c1 : (i.code &&& 0x7#16) = 0x00#16 := cls_eq _ 0 (by decide) hc.1
          have c2 : (i.code &&& 0x18#16) = 0x00#16 := size_eq _ 0 (by decide) hc.2.1
          have c3 : (i.code &&& 0xe0#16) = 0x40#16 := mode_eq _ 2 (by decide) hc.2.2.1
          rw [if_pos c1, ldValue_eq, c3, if_neg (by decide), if_neg (by decide), if_pos rfl]
          have ha : addU32 b vm.idx i.k = .ok (vm.idx + i.k) := by
            unfold addU32
            rw [if_neg]
            intro ⟨h1, h2⟩
            exact hc.2.2.2 ⟨h1, by omega⟩
          simp only [ha, Res.bind, fetchData_eq, c2]
          unfold fetchU32
          rw [BitVec.toNat_add, h, hx]
          rfl
        · cases h

/-- Data that agree on the look of an instruction make no difference to it. -/
theorem execute_agree (b : Build) (data data' : RunData) (vm : VM) (h : ∀ l, nextLook b vm = some l → AgreeAt data data' l) :
    vm.execute b data = vm.execute b data' := by
  unfold nextLook at h
  unfold VM.execute
  cases hi : vm.prog[vm.pc]? with
  | none => rfl
  | some i =>
    rw [hi] at h
    simp only at h ⊢
    rw [executeInstr_eq, executeInstr_eq]
    by_cases hc : i.code &&& 0x7#16 = 0x00#16
    · have hcls : i.code.toNat % 8 = 0 := ((code_fields i.code).1 0 (by decide)).1 hc
      rw [if_pos hc, if_pos hc]
      have key : ({ vm with pc := vm.pc + 1 } : VM).ldValue b data i = ({ vm with pc := vm.pc + 1 } : VM).ldValue b data' i := by
        rw [ldValue_eq, ldValue_eq]
        by_cases m0 : i.code &&& 0xe0#16 = 0x00#16
        · rw [if_pos m0, if_pos m0]
        · rw [if_neg m0, if_neg m0]
          by_cases m1 : i.code &&& 0xe0#16 = 0x20#16
          · rw [if_pos m1, if_pos m1, fetchData_eq, fetchData_eq]
            have hm : i.code.toNat / 32 % 8 = 1 := ((code_fields i.code).2.2 1 (by decide)).1 m1
            by_cases s0 : i.code &&& 0x18#16 = 0x00#16
            · have hs : i.code.toNat / 8 % 4 = 0 := ((code_fields i.code).2.1 0 (by decide)).1 s0
              rw [if_pos s0, if_pos s0]
              have := h (.word (i.k.toNat / 4)) (by rw [if_neg (by omega), if_pos ⟨hcls, hs, hm⟩])
              unfold fetchU32
              rw [show data[i.k.toNat / 4]? = data'[i.k.toNat / 4]? from this]
            · rw [if_neg s0, if_neg s0]
          · rw [if_neg m1, if_neg m1]
            by_cases m2 : i.code &&& 0xe0#16 = 0x40#16
            · rw [if_pos m2, if_pos m2]
              have hm : i.code.toNat / 32 % 8 = 2 := ((code_fields i.code).2.2 2 (by decide)).1 m2
              unfold addU32
              by_cases ho : b.overflowChecks = true ∧ 2 ^ 32 ≤ vm.idx.toNat + i.k.toNat
              · rw [if_pos ⟨ho.1, by have := ho.2; omega⟩]
                rfl
              · rw [if_neg (by intro ⟨h1, h2⟩; exact ho ⟨h1, by omega⟩)]
                simp only [Res.bind, fetchData_eq]
                by_cases s0 : i.code &&& 0x18#16 = 0x00#16
                · have hs : i.code.toNat / 8 % 4 = 0 := ((code_fields i.code).2.1 0 (by decide)).1 s0
                  rw [if_pos s0, if_pos s0]
                  have := h (.word ((vm.idx.toNat + i.k.toNat) % 2 ^ 32 / 4))
                    (by rw [if_neg (by omega), if_neg (by omega), if_pos ⟨hcls, hs, hm, ho⟩])
                  unfold fetchU32
                  rw [BitVec.toNat_add, show data[(vm.idx.toNat + i.k.toNat) % 2 ^ 32 / 4]? = data'[(vm.idx.toNat + i.k.toNat) % 2 ^ 32 / 4]? from this]
                · rw [if_neg s0, if_neg s0]
            · rw [if_neg m2, if_neg m2]
              by_cases m3 : i.code &&& 0xe0#16 = 0x60#16
              · rw [if_pos m3, if_pos m3]
              · rw [if_neg m3, if_neg m3]
                by_cases m4 : i.code &&& 0xe0#16 = 0x80#16
                · have hm : i.code.toNat / 32 % 8 = 4 := ((code_fields i.code).2.2 4 (by decide)).1 m4
                  have := h .length (by rw [if_pos ⟨.inl hcls, hm⟩])
                  rw [show data.length = data'.length from this]
                · rw [if_neg m4, if_neg m4]
      rw [key]
    · rw [if_neg hc, if_neg hc]
      by_cases hc1 : i.code &&& 0x7#16 = 0x01#16
      · have hcls : i.code.toNat % 8 = 1 := ((code_fields i.code).1 1 (by decide)).1 hc1
        rw [if_pos hc1, if_pos hc1]
        have key : ({ vm with pc := vm.pc + 1 } : VM).ldxValue data i = ({ vm with pc := vm.pc + 1 } : VM).ldxValue data' i := by
          rw [ldxValue_eq, ldxValue_eq]
          by_cases m4 : i.code &&& 0xe0#16 = 0x80#16
          · have hm : i.code.toNat / 32 % 8 = 4 := ((code_fields i.code).2.2 4 (by decide)).1 m4
            have := h .length (by rw [if_pos ⟨.inr hcls, hm⟩])
            rw [show data.length = data'.length from this]
          · rw [if_neg (c := i.code &&& 0xe0#16 = 0x80#16) m4, if_neg (c := i.code &&& 0xe0#16 = 0x80#16) m4]
        rw [key]
      · rw [if_neg hc1, if_neg hc1]

/-! ### Whole runs -/

theorem loop_agree (b : Build) (data data' : RunData) (n : Nat) (vm : VM) (hn : vm.prog.length - vm.pc ≤ n)
    (h : ∀ l, Looks b data vm l → AgreeAt data data' l) : vm.loop b data = vm.loop b data' := by
  induction n generalizing vm with
  | zero => rw [loop_done b vm data (by omega), loop_done b vm data' (by omega)]
  | succ n ih =>
    by_cases hlt : vm.pc < vm.prog.length
    · have he := execute_agree b data data' vm fun l hl => h l (.now vm l hlt hl)
      rw [VM.loop, if_pos hlt, VM.loop, if_pos hlt, ← he]
      have hp := execute_prog b vm data
      have hc := execute_pc b vm data hlt
      rcases hx : vm.execute b data with ⟨vm', r | _ | _⟩
      · rw [hx] at hp hc
        simp only at hp hc
        cases r with
        | none => exact ih vm' (by rw [hp]; omega) fun l hl => h l (.later vm vm' l hlt hx hl)
        | some r => rfl
      · rfl
      · rfl
    · rw [loop_done b vm data (by omega), loop_done b vm data' (by omega)]

/-- C92: a run, its result and the machine it leaves, depends on the data only where it looks. -/
theorem C92_only_where_it_looks (b : Build) (vm : VM) (data data' : RunData) (h : ∀ l, Looks b data vm.reset l → AgreeAt data data' l) :
    vm.run b data = vm.run b data' :=
  loop_agree b data data' _ vm.reset (Nat.le_refl _) h

/-- C92: so on the slice that `any_to_data` makes, a run that looks at no word behind the value and does not ask for the length gives
what it gives on the value. The code of the program outside the path taken does not matter. -/
theorem C92_value_only (b : Build) (vm : VM) (obj : List (BitVec 32)) (beyond : Nat → BitVec 32)
    (h : ∀ l, Looks b (anyToData obj beyond) vm.reset l → ∃ w, l = .word w ∧ w < obj.length) :
    vm.run b (anyToData obj beyond) = vm.run b obj := by
  apply C92_only_where_it_looks
  intro l hl
  obtain ⟨w, rfl, hw⟩ := h l hl
  unfold AgreeAt anyToData
  exact List.getElem?_append_left hw

theorem foreign_word (obj : List (BitVec 32)) (beyond : Nat → BitVec 32) (w : Nat) (h1 : obj.length ≤ w) (h2 : w < 4 * obj.length) :
    (anyToData obj beyond)[w]? = some (beyond (w - obj.length)) := by
  unfold anyToData anyToDataLen
  rw [List.getElem?_append_right h1, List.getElem?_map, List.getElem?_range (by omega)]
  rfl

theorem anyToData_length (obj : List (BitVec 32)) (beyond : Nat → BitVec 32) : (anyToData obj beyond).length = 4 * obj.length := by
  unfold anyToData anyToDataLen
  simp
  omega

theorem agree_slices (obj : List (BitVec 32)) (beyond beyond' : Nat → BitVec 32) (l : Look)
    (h : ∀ w, l = .word w → ¬ (obj.length ≤ w ∧ w < 4 * obj.length)) : AgreeAt (anyToData obj beyond) (anyToData obj beyond') l := by
  cases l with
  | length => exact (anyToData_length _ _).trans (anyToData_length _ _).symm
  | word w =>
    have hw := h w rfl
    unfold AgreeAt
    by_cases h1 : w < obj.length
    · unfold anyToData
      simp only
      rw [List.getElem?_append_left h1, List.getElem?_append_left h1]
    · have h2 : 4 * obj.length ≤ w := by omega
      simp only
      rw [List.getElem?_eq_none (by rw [anyToData_length]; exact h2), List.getElem?_eq_none (by rw [anyToData_length]; exact h2)]

theorem after_agree (b : Build) (data data' : RunData) (n : Nat) (vm : VM)
    (h : ∀ l, Looks b data vm l → AgreeAt data data' l) : afterSteps b data n vm = afterSteps b data' n vm := by
  induction n generalizing vm with
  | zero => rfl
  | succ n ih =>
    unfold afterSteps
    by_cases hlt : vm.pc < vm.prog.length
    · have he := execute_agree b data data' vm fun l hl => h l (.now vm l hlt hl)
      rw [if_pos hlt, if_pos hlt, ← he]
      rcases hx : vm.execute b data with ⟨vm', r | _ | _⟩
      · cases r with
        | none => exact ih vm' fun l hl => h l (.later vm vm' l hlt hx hl)
        | some r => rfl
      · rfl
      · rfl
    · rw [if_neg hlt, if_neg hlt]

theorem leak (b : Build) (obj : List (BitVec 32)) (beyond : Nat → BitVec 32) (vm : VM) (l : Look)
    (h : Looks b (anyToData obj beyond) vm l) (w : Nat) (hl : l = .word w) (h1 : obj.length ≤ w) (h2 : w < 4 * obj.length) :
    ∃ n, afterSteps b (anyToData obj beyond) n vm ≠ afterSteps b (anyToData obj fun i => ~~~ beyond i) n vm := by
  have here : ∀ (vm : VM) (w : Nat), vm.pc < vm.prog.length → nextLook b vm = some (.word w) → obj.length ≤ w → w < 4 * obj.length →
      ∃ n, afterSteps b (anyToData obj beyond) n vm ≠ afterSteps b (anyToData obj fun i => ~~~ beyond i) n vm := by
    intro vm w hlt hn h1 h2
    refine ⟨1, fun h => ?_⟩
    simp only [afterSteps, if_pos hlt, execute_word b _ vm w _ hn (foreign_word obj beyond w h1 h2),
      execute_word b _ vm w _ hn (foreign_word obj (fun i => ~~~ beyond i) w h1 h2)] at h
    have := congrArg VM.acc h
    simp only at this
    have h0 := congrArg (fun x : BitVec 32 => x.getLsbD 0) this
    simp at h0
  induction h with
  | now vm l hlt hn => subst hl; exact here vm w hlt hn h1 h2
  | later vm vm' l hlt hx _ ih =>
    by_cases hf : ∃ w', nextLook b vm = some (.word w') ∧ obj.length ≤ w' ∧ w' < 4 * obj.length
    · obtain ⟨w', hn, h3, h4⟩ := hf
      exact here vm w' hlt hn h3 h4
    · obtain ⟨n, hn⟩ := ih hl
      refine ⟨n + 1, ?_⟩
      have he := execute_agree b (anyToData obj beyond) (anyToData obj fun i => ~~~ beyond i) vm fun l hl =>
        agree_slices obj _ _ l fun w' hw' hr => hf ⟨w', by rw [hl, hw'], hr⟩
      rw [hx] at he
      unfold afterSteps
      rw [if_pos hlt, if_pos hlt, hx, ← he]
      exact hn

/-- C92: foreign memory shows in some state of the machine during the run exactly if the run looks at a word of the slice behind the
value. -/
theorem C92_foreign_iff (b : Build) (vm : VM) (obj : List (BitVec 32)) (beyond : Nat → BitVec 32) :
    (∃ w, Looks b (anyToData obj beyond) vm.reset (.word w) ∧ obj.length ≤ w ∧ w < 4 * obj.length) ↔
    ∃ beyond' n, afterSteps b (anyToData obj beyond) n vm.reset ≠ afterSteps b (anyToData obj beyond') n vm.reset := by
  constructor
  · rintro ⟨w, h, h1, h2⟩
    obtain ⟨n, hn⟩ := leak b obj beyond _ _ h w rfl h1 h2
    exact ⟨_, n, hn⟩
  · rintro ⟨beyond', n, hn⟩
    refine Classical.byContradiction fun hno => hn ?_
    apply after_agree
    intro l hl
    refine agree_slices obj _ _ l fun w hw hr => hno ⟨w, ?_, hr⟩
    rw [← hw]
    exact hl

/-- C92: if it does not, no content of foreign memory changes the result or the machine. -/
theorem C92_otherwise_same (b : Build) (vm : VM) (obj : List (BitVec 32)) (beyond beyond' : Nat → BitVec 32)
    (h : ¬ ∃ w, Looks b (anyToData obj beyond) vm.reset (.word w) ∧ obj.length ≤ w ∧ w < 4 * obj.length) :
    vm.run b (anyToData obj beyond) = vm.run b (anyToData obj beyond') := by
  apply C92_only_where_it_looks
  intro l hl
  refine agree_slices obj _ _ l fun w hw hr => h ⟨w, ?_, hr⟩
  rw [← hw]
  exact hl

/-! ### Cases -/

/-- A program that returns word 16 of a record of sixteen words looks at foreign memory; one that jumps over this load does not. -/
example (b : Build) (d : SeccompData) (beyond : Nat → BitVec 32) :
    (∃ vm, VM.new [⟨0x20, 0, 0, 64⟩, ⟨0x16, 0, 0, 0⟩] = .ok vm ∧ Looks b (anyToData d.words beyond) vm.reset (.word 16)) ∧
    (∃ vm, VM.new [⟨0x05, 0, 0, 1⟩, ⟨0x20, 0, 0, 64⟩, ⟨0x06, 0, 0, 7⟩] = .ok vm ∧ ∀ l, ¬ Looks b (anyToData d.words beyond) vm.reset l) := by
  refine ⟨⟨_, rfl, .now _ _ (by decide) rfl⟩, ⟨_, rfl, fun l hl => ?_⟩⟩
  cases hl with
  | now _ _ _ h => cases h
  | later _ vm' _ _ hx h =>
    have e : vm' = ⟨2, 0, 0, Vector.replicate 16 0, [⟨0x05, 0, 0, 1⟩, ⟨0x20, 0, 0, 64⟩, ⟨0x06, 0, 0, 7⟩]⟩ := by
      have := congrArg Prod.fst hx
      exact this.symm
    subst e
    cases h with
    | now _ _ _ h => cases h
    | later _ vm'' _ _ hx' _ =>
      have := congrArg Prod.snd hx'
      cases this

end Props
