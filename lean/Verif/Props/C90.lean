/-
C90 A transfer builder that chooses the tree depth itself
status: partial
note: C90_power: if the logarithm computed with floating point numbers is not too large, the next power of three is the least one, for all numbers up to 3^40; whatever it is, a result is a power of three and large enough. C90_given: with a depth given, the builder is the one of C80; C90_room: it is then made exactly if there is a key for each input, at least one input and output, and room in the tree. C90_chosen_partial: up to 27 records, the builder without a depth is the one that is given the least power of three not below their number as depth (3, 9 or 27), so all of C80 is true of it. C90_fits_partial: up to 3^38 records a tree of the chosen depth has room for all. Not true in general: C90_own_false, from 28 up to 3^21 records the builder itself refuses (by a panic) the depth it chooses, because it takes the power of three and not its exponent; C90_least_false: up to 27 records a smaller depth always suffices; C90_fits_false: the depth is cut to eight bits, so that for 3^38 + 1 records it is 11.
-/
import Verif.Model.Depth
import Verif.Model.ToyNotes
import Mathlib.Data.Nat.Log
import Mathlib.Tactic.NormNum

namespace Cap

/-- the least power of three not below `n` -/
def Spec.LeastPowerOfThree (n r : ℕ) : Prop := n ≤ r ∧ (∃ k, r = 3 ^ k) ∧ ∀ k, n ≤ 3 ^ k → r ≤ 3 ^ k

/-- A logarithm to base three, rounded down, that is not too large for this number. -/
def Spec.LogNotAbove (lg : ℕ → ℕ) (n : ℕ) : Prop := ∀ k, n ≤ 3 ^ k → lg n ≤ k

open Spec

theorem powerLoop_ok : ∀ {n e r : ℕ}, powerLoop n e = .ok r → n ≤ r ∧ ∃ k, r = 3 ^ k := by
  intro n e
  induction e using powerLoop.induct (current := n) with
  | case1 e h1 h2 ih =>
    intro r h
    rw [powerLoop, if_pos h1, if_pos h2] at h
    exact ih h
  | case2 e h1 h2 =>
    intro r h
    rw [powerLoop, if_pos h1, if_neg h2] at h
    injection h with h
    exact ⟨by omega, e, h.symm⟩
  | case3 e h1 =>
    intro r h
    rw [powerLoop, if_neg h1] at h
    exact absurd h (by simp)

theorem pow3_lt {a b : ℕ} (h : 3 ^ a < 3 ^ b) : a < b := (Nat.pow_lt_pow_iff_right (by norm_num)).1 h

theorem powerLoop_least : ∀ {n e : ℕ}, (∀ k, n ≤ 3 ^ k → e ≤ k) → n ≤ 3 ^ 40 →
    ∃ r, powerLoop n e = .ok r ∧ LeastPowerOfThree n r := by
  intro n e
  induction e using powerLoop.induct (current := n) with
  | case1 e h1 h2 ih =>
    intro hk hn
    rw [powerLoop, if_pos h1, if_pos h2]
    exact ih (fun k h => pow3_lt (lt_of_lt_of_le h2 h)) hn
  | case2 e h1 h2 =>
    intro hk _
    rw [powerLoop, if_pos h1, if_neg h2]
    exact ⟨_, rfl, by omega, ⟨e, rfl⟩, fun k h => Nat.pow_le_pow_right (by norm_num) (hk k h)⟩
  | case3 e h1 =>
    intro hk hn
    have h : 3 ^ e ≤ 3 ^ 40 := Nat.pow_le_pow_right (by norm_num) (hk 40 hn)
    exact absurd (lt_of_le_of_lt h (by norm_num)) h1

theorem least_unique {n r s : ℕ} (hr : LeastPowerOfThree n r) (hs : LeastPowerOfThree n s) : r = s := by
  obtain ⟨h1, ⟨k, rfl⟩, h2⟩ := hr
  obtain ⟨h3, ⟨j, rfl⟩, h4⟩ := hs
  exact le_antisymm (h2 j h3) (h4 k h1)

/-- The next power of three: large enough whatever the logarithm, and the least one if the logarithm is not too large. -/
theorem C90_power (lg : ℕ → ℕ) (n : ℕ) :
    (∀ r, nextPowerOfThree lg n = .ok r → n ≤ r ∧ ∃ k, r = 3 ^ k) ∧
    (LogNotAbove lg n → n ≤ 3 ^ 40 → ∃ r, nextPowerOfThree lg n = .ok r ∧ LeastPowerOfThree n r) :=
  ⟨fun _ h => powerLoop_ok h, fun hl hn => powerLoop_least hl hn⟩

theorem choose_none {lg : ℕ → ℕ} {ni no : ℕ} (hi : 1 ≤ ni) (ho : 1 ≤ no) {r : ℕ}
    (h : nextPowerOfThree lg (ni + no) = .ok r) :
    TransferBuilder.chooseTreeDepth lg ni no none = .ok (Fin.ofNat 256 r) := by
  have h1 : ni ≠ 0 := by omega
  have h2 : no ≠ 0 := by omega
  simp [TransferBuilder.chooseTreeDepth, ensure, h1, h2, h, bind, Except.bind]

theorem calculate_ok {ni no : ℕ} (hi : 1 ≤ ni) (ho : 1 ≤ no) {d : Fin 256} (h1 : 3 ^ d.val < 2 ^ 64)
    (h2 : ni + no ≤ 3 ^ d.val) : TransferBuilder.calculateTreeDepth ni no d = .ok d := by
  have hi' : ni ≠ 0 := by omega
  have ho' : no ≠ 0 := by omega
  simp only [TransferBuilder.calculateTreeDepth, ensure, h1, h2, bind, Except.bind]
  simp [hi', ho']

theorem calculate_panic {ni no : ℕ} (d : Fin 256) (h1 : 2 ^ 64 ≤ 3 ^ d.val) :
    TransferBuilder.calculateTreeDepth ni no d = .error .panic := by
  unfold TransferBuilder.calculateTreeDepth
  by_cases hi : ni = 0
  · simp [ensure, hi, bind, Except.bind]
  · by_cases ho : no = 0
    · simp [ensure, hi, ho, bind, Except.bind]
    · simp only [ensure, not_lt.2 h1, bind, Except.bind]
      simp [hi, ho]

theorem least_le {n k r : ℕ} (h : LeastPowerOfThree n r) (hn : n ≤ 3 ^ k) : r ≤ 3 ^ k := h.2.2 k hn

theorem least_exp {n k r : ℕ} (h : LeastPowerOfThree n r) (hn : n ≤ 3 ^ k) : ∃ j ≤ k, r = 3 ^ j := by
  obtain ⟨j, rfl⟩ := h.2.1
  exact ⟨j, (Nat.pow_le_pow_iff_right (by norm_num)).1 (least_le h hn), rfl⟩

theorem self_le_pow3 (n : ℕ) : n ≤ 3 ^ n := le_of_lt (Nat.lt_pow_self (by norm_num))

/-- what is left of a power of three in eight bits, up to the 38th -/
theorem cut_large : ∀ j ≤ 38, j ≤ 3 ^ j % 256 := by decide

/-- Up to 3^38 records, a tree of the chosen depth has room for all of them. -/
theorem C90_fits_partial {lg : ℕ → ℕ} {ni no : ℕ} (hi : 1 ≤ ni) (ho : 1 ≤ no) (few : ni + no ≤ 3 ^ 38)
    (log : LogNotAbove lg (ni + no)) :
    ∃ d, TransferBuilder.chooseTreeDepth lg ni no none = .ok d ∧ ni + no ≤ 3 ^ d.val := by
  obtain ⟨r, h, hl⟩ := (C90_power lg (ni + no)).2 log (le_trans few (by norm_num))
  obtain ⟨j, hj, rfl⟩ := least_exp hl few
  refine ⟨_, choose_none hi ho h, le_trans hl.1 (Nat.pow_le_pow_right (by norm_num) ?_)⟩
  exact cut_large j hj

/-- From 28 records on, the builder panics on the depth that it chooses. -/
theorem C90_own_false {lg : ℕ → ℕ} {ni no : ℕ} (hi : 1 ≤ ni) (ho : 1 ≤ no) (many : 28 ≤ ni + no) (few : ni + no ≤ 3 ^ 21)
    (log : LogNotAbove lg (ni + no)) :
    ∃ d, TransferBuilder.chooseTreeDepth lg ni no none = .ok d ∧
      TransferBuilder.chooseTreeDepth lg ni no (some d) = .error .panic := by
  obtain ⟨r, h, hl⟩ := (C90_power lg (ni + no)).2 log (le_trans few (by norm_num))
  obtain ⟨j, hj, rfl⟩ := least_exp hl few
  have h4 : 4 ≤ j := by
    by_contra hc
    have := Nat.pow_le_pow_right (n := 3) (by norm_num) (show j ≤ 3 by omega)
    have := hl.1
    omega
  have hc : ∀ j ≤ 21, 4 ≤ j → 41 ≤ 3 ^ j % 256 := by decide
  refine ⟨_, choose_none hi ho h, calculate_panic _ (le_trans (show 2 ^ 64 ≤ 3 ^ 41 by norm_num) ?_)⟩
  exact Nat.pow_le_pow_right (by norm_num) (hc j hj h4)

/-- Up to 27 records, the chosen depth is never the least one that suffices. -/
theorem C90_least_false {lg : ℕ → ℕ} {ni no : ℕ} (hi : 1 ≤ ni) (ho : 1 ≤ no) (few : ni + no ≤ 27)
    (log : LogNotAbove lg (ni + no)) :
    ∃ d d' : Fin 256, TransferBuilder.chooseTreeDepth lg ni no none = .ok d ∧ d' < d ∧
      TransferBuilder.chooseTreeDepth lg ni no (some d') = .ok d' := by
  obtain ⟨r, h, hl⟩ := (C90_power lg (ni + no)).2 log (le_trans few (by norm_num))
  obtain ⟨j, hj, rfl⟩ := least_exp hl (k := 3) (by omega)
  have hd' : (Fin.ofNat 256 j).val = j := by
    show j % 256 = j
    omega
  have h1 : 3 ^ (Fin.ofNat 256 j).val < 2 ^ 64 := by
    rw [hd']
    exact lt_of_le_of_lt (Nat.pow_le_pow_right (by norm_num) hj) (by norm_num)
  refine ⟨_, Fin.ofNat 256 j, choose_none hi ho h, ?_, calculate_ok hi ho h1 (by rw [hd']; exact hl.1)⟩
  show j % 256 < 3 ^ j % 256
  have : ∀ j ≤ 3, j % 256 < 3 ^ j % 256 := by decide
  exact this j hj

/-- The power is cut to eight bits: with so many records, a tree of the chosen depth has no room for them. -/
theorem C90_fits_false {lg : ℕ → ℕ} (log : LogNotAbove lg (3 ^ 38 + 1)) :
    ∃ d, TransferBuilder.chooseTreeDepth lg (3 ^ 38) 1 none = .ok d ∧ ¬ 3 ^ 38 + 1 ≤ 3 ^ d.val := by
  obtain ⟨r, h, hl⟩ := (C90_power lg (3 ^ 38 + 1)).2 log (by norm_num)
  have hr : LeastPowerOfThree (3 ^ 38 + 1) (3 ^ 39) := by
    refine ⟨by norm_num, ⟨39, rfl⟩, fun k hk => Nat.pow_le_pow_right (by norm_num) ?_⟩
    exact pow3_lt (by omega)
  obtain rfl := least_unique hl hr
  refine ⟨_, choose_none (by norm_num) le_rfl h, ?_⟩
  have : (Fin.ofNat 256 (3 ^ 39)).val = 11 := by norm_num [Fin.ofNat]
  rw [this]
  norm_num

variable [E : CapEnv]

/-- With a depth given, nothing depends on the logarithm. -/
theorem C90_given (lg : ℕ → ℕ) (ni no : ℕ) (d : Fin 256) (users : List UserKeyPair) (asset : Option NonNativeAsset) :
    TransferBuilder.newWith lg ni no (some d) users asset = TransferBuilder.new ni no d users asset := rfl

/-- A builder is made exactly if there is a key for each input, at least one input and output, and room in the tree. -/
theorem C90_room (lg : ℕ → ℕ) (ni no : ℕ) (d : Fin 256) (users : List UserKeyPair) (asset : Option NonNativeAsset) :
    (∃ t, TransferBuilder.newWith lg ni no (some d) users asset = .ok t) ↔
      users.length = ni ∧ 1 ≤ ni ∧ 1 ≤ no ∧ ni + no ≤ 3 ^ d.val ∧ 3 ^ d.val < 2 ^ 64 := by
  constructor
  · rintro ⟨t, h⟩
    unfold TransferBuilder.newWith TransferBuilder.chooseTreeDepth TransferBuilder.calculateTreeDepth at h
    simp only [bind_ok_iff, ensure_ok_iff, decide_eq_true_eq] at h
    obtain ⟨-, h0, d', ⟨-, h1, -, h2, -, h3, -, h4, -⟩, -⟩ := h
    exact ⟨h0, by omega, by omega, h4, h3⟩
  · rintro ⟨h0, h1, h2, h3, h4⟩
    rw [C90_given]
    unfold TransferBuilder.new
    rw [calculate_ok h1 h2 h4 h3]
    simp [ensure, h0, bind, Except.bind]

/-- Up to 27 records, the builder without a depth is the builder with the depth 3, 9 or 27, the least that is not below the
number of records. -/
theorem C90_chosen_partial {lg : ℕ → ℕ} {ni no : ℕ} (hi : 1 ≤ ni) (ho : 1 ≤ no) (few : ni + no ≤ 27)
    (log : LogNotAbove lg (ni + no)) :
    ∃ d : Fin 256, LeastPowerOfThree (ni + no) d.val ∧ ni + no ≤ 3 ^ d.val ∧ 3 ^ d.val < 2 ^ 64 ∧
      ∀ users asset, TransferBuilder.newWith lg ni no none users asset = TransferBuilder.new ni no d users asset := by
  obtain ⟨r, h, hl⟩ := (C90_power lg (ni + no)).2 log (le_trans few (by norm_num))
  have hr : r ≤ 27 := least_le (k := 3) hl (by omega)
  have hd : (Fin.ofNat 256 r).val = r := by
    show r % 256 = r
    omega
  have h1 : ni + no ≤ 3 ^ (Fin.ofNat 256 r).val := by
    rw [hd]
    exact le_trans hl.1 (self_le_pow3 r)
  have h2 : 3 ^ (Fin.ofNat 256 r).val < 2 ^ 64 := by
    rw [hd]
    exact lt_of_le_of_lt (Nat.pow_le_pow_right (by norm_num) hr) (by norm_num)
  refine ⟨Fin.ofNat 256 r, by rw [hd]; exact hl, h1, h2, fun users asset => ?_⟩
  unfold TransferBuilder.newWith TransferBuilder.new
  rw [choose_none hi ho h, calculate_ok hi ho h2 h1]

end Cap

namespace Cap.Examples

open Toy Spec

/-- the exact logarithm is not too large -/
example (n : ℕ) : LogNotAbove (Nat.log 3) n := fun k h => by
  have := Nat.log_mono_right (b := 3) h
  rwa [Nat.log_pow (by norm_num)] at this

/-- also one that is always wrong by the largest amount -/
example (n : ℕ) : LogNotAbove (fun _ => 0) n := fun _ _ => Nat.zero_le _

/-- five records: depth 9; two would do -/
example : TransferBuilder.chooseTreeDepth (fun _ => 1) 2 3 none = .ok 9 ∧
    TransferBuilder.chooseTreeDepth (fun _ => 1) 2 3 (some 2) = .ok 2 := by
  constructor <;> simp [TransferBuilder.chooseTreeDepth, TransferBuilder.calculateTreeDepth, nextPowerOfThree, powerLoop,
    ensure, bind, Except.bind]

/-- two inputs and three outputs: the builder that all of C80 is about, with depth 9 -/
example : TransferBuilder.newWith (fun _ => 1) 2 3 none [] none = TransferBuilder.new 2 3 9 [] none := by
  obtain ⟨d, h, -, -, h'⟩ := C90_chosen_partial (lg := fun _ => 1) (ni := 2) (no := 3) (by norm_num) (by norm_num)
    (by norm_num) (fun k hk => by
      by_contra hc
      have hc' : ¬ 1 ≤ k := hc
      obtain rfl : k = 0 := by omega
      omega)
  have h9 : LeastPowerOfThree (2 + 3) 9 := ⟨by norm_num, ⟨2, rfl⟩, fun k hk => by
    have : 2 ≤ k := by
      by_contra hc
      have := Nat.pow_le_pow_right (n := 3) (by norm_num) (show k ≤ 1 by omega)
      omega
    exact Nat.pow_le_pow_right (n := 3) (by norm_num) this⟩
  rw [h', Fin.ext (show d.val = (9 : Fin 256).val from least_unique h h9)]

/-- a tree without room is refused -/
example : ¬ ∃ t, TransferBuilder.newWith (fun _ => 0) 2 3 (some 1) [(alice : UserKeyPair), alice] none = .ok t := by
  rw [C90_room]
  simp

/-- twenty inputs and eight outputs: depth 81, which is refused when given -/
example : TransferBuilder.chooseTreeDepth (fun _ => 3) 20 8 none = .ok 81 ∧
    TransferBuilder.chooseTreeDepth (fun _ => 3) 20 8 (some 81) = .error .panic := by
  constructor <;> simp [TransferBuilder.chooseTreeDepth, TransferBuilder.calculateTreeDepth, nextPowerOfThree, powerLoop,
    ensure, bind, Except.bind]

/-- a logarithm that is too large still gives room, but more than needed -/
example : nextPowerOfThree (fun _ => 3) 5 = .ok 27 := by simp [nextPowerOfThree, powerLoop]

end Cap.Examples
