/-
Helper lemmas: sums of field elements and sums of their representatives; the balance gates.
-/
import Verif.Lemmas.Accepted
import Mathlib.Tactic.LinearCombination

namespace Cap

open Spec

variable [E : CapEnv]

/-- the sum of the canonical representatives -/
def natSum (l : List F) : ℕ := (l.map ZMod.val).sum

theorem natSum_cast (l : List F) : ((natSum l : ℕ) : F) = l.sum := by
  induction l with
  | nil => simp [natSum]
  | cons a as ih =>
    simp only [natSum, List.map_cons, List.sum_cons, Nat.cast_add, f_cast_val] at ih ⊢
    rw [ih]

theorem natSum_le (l : List F) (B : ℕ) (h : ∀ x ∈ l, x.val ≤ B) : natSum l ≤ l.length * B := by
  induction l with
  | nil => simp [natSum]
  | cons a as ih =>
    have h1 := h a (by simp)
    have h2 := ih (fun x hx => h x (List.mem_cons_of_mem _ hx))
    simp only [natSum, List.map_cons, List.sum_cons, List.length_cons] at h2 ⊢
    rw [Nat.add_mul, Nat.one_mul]
    omega

/-- the three gates of `preserve_balance` as equations over the field -/
theorem preserveBalance_iff {native asset fee in0 out0 : F} {ins outs : List F} :
    PreserveBalance native asset fee in0 out0 ins outs ↔
      (native ≠ asset → in0 = out0 + fee ∧ sumTail ins = sumTail outs) ∧
      (native = asset → in0 + sumTail ins = out0 + sumTail outs + fee) := by
  unfold PreserveBalance
  by_cases h : native = asset
  · simp only [h, decide_true, boolF, if_true, one_mul, and_true, ne_eq, not_true, false_imp_iff, true_and,
      true_imp_iff]
    constructor
    · intro h'
      linear_combination h'
    · intro h'
      linear_combination h'
  · simp only [h, decide_false, boolF, Bool.false_eq_true, if_false, zero_mul, add_zero, true_and, ne_eq,
      not_false_iff, true_imp_iff, false_imp_iff, and_true]
    constructor
    · rintro ⟨h1, h2⟩
      constructor
      · linear_combination -h2
      · linear_combination -h1
    · rintro ⟨h1, h2⟩
      constructor
      · linear_combination -h2
      · linear_combination -h1

/-- Field equations between small numbers hold over the natural numbers. -/
theorem balance_nat {native asset : F} {fee : Amount} {in0 out0 : F} {ins outs : List F}
    (h : PreserveBalance native asset (Amount.toF fee) in0 out0 (in0 :: ins) (out0 :: outs))
    (hi : ∀ x ∈ in0 :: ins, x.val < 2 ^ 128) (ho : ∀ x ∈ out0 :: outs, x.val < 2 ^ 127)
    (hin : ins.length < 2 ^ 64) (hout : outs.length < 2 ^ 64) :
    (native ≠ asset → in0.val = out0.val + fee.val ∧ natSum ins = natSum outs) ∧
      (native = asset → in0.val + natSum ins = out0.val + natSum outs + fee.val) := by
  obtain ⟨h1, h2⟩ := preserveBalance_iff.1 h
  simp only [sumTail, List.tail_cons] at h1 h2
  have bi := natSum_le ins (2 ^ 128) (fun x hx => le_of_lt (hi x (List.mem_cons_of_mem _ hx)))
  have bo := natSum_le outs (2 ^ 127) (fun x hx => le_of_lt (ho x (List.mem_cons_of_mem _ hx)))
  have b0 := hi in0 (by simp)
  have c0 := ho out0 (by simp)
  have bf := fee.isLt
  have bi' : natSum ins < 2 ^ 192 :=
    lt_of_le_of_lt bi (by have : (2:ℕ) ^ 192 = 2 ^ 64 * 2 ^ 128 := by norm_num
                          rw [this]
                          exact Nat.mul_lt_mul_of_pos_right hin (by norm_num))
  have bo' : natSum outs < 2 ^ 192 :=
    lt_of_le_of_lt bo (by have : (2:ℕ) ^ 64 * 2 ^ 127 < 2 ^ 192 := by norm_num
                          exact lt_of_le_of_lt (Nat.mul_le_mul_right _ (le_of_lt hout)) this)
  have big : (2:ℕ) ^ 192 + 2 ^ 128 + 2 ^ 128 < 2 ^ 252 := by norm_num
  constructor
  · intro hne
    obtain ⟨e1, e2⟩ := h1 hne
    constructor
    · apply natF_inj (by omega) (by omega)
      push_cast
      rw [f_cast_val, f_cast_val]
      exact e1
    · apply natF_inj (by omega) (by omega)
      rw [natSum_cast, natSum_cast]
      exact e2
  · intro heq
    have e := h2 heq
    apply natF_inj (by omega) (by omega)
    push_cast
    rw [f_cast_val, f_cast_val, natSum_cast, natSum_cast]
    exact e

end Cap
