/-
Helper lemmas about reveal maps and bits.
-/
import Verif.Lemmas.Basic

namespace Cap

/-- one step of the fold of `RevealMap.toNat` -/
theorem revealFold_append (l : List Bool) (b : Bool) (n : ℕ) :
    (l ++ [b]).foldl (fun (acc : ℕ) (x : Bool) => if x then acc * 2 + 1 else acc * 2) n =
      2 * (l.foldl (fun (acc : ℕ) (x : Bool) => if x then acc * 2 + 1 else acc * 2) n) + b.toNat := by
  rw [List.foldl_append]
  cases b <;> simp [Nat.mul_comm]

theorem revealFold_testBit (l : List Bool) (k : ℕ) :
    (l.foldl (fun (acc : ℕ) (x : Bool) => if x then acc * 2 + 1 else acc * 2) 0).testBit k = (l.reverse[k]?).getD false := by
  induction l using List.reverseRecOn generalizing k with
  | nil => simp
  | append_singleton l b ih =>
    rw [revealFold_append]
    cases k with
    | zero => cases b <;> simp [Nat.testBit_zero]
    | succ k =>
      rw [Nat.testBit_succ]
      have : (2 * (l.foldl (fun (acc : ℕ) (x : Bool) => if x then acc * 2 + 1 else acc * 2) 0) + b.toNat) / 2 =
          l.foldl (fun (acc : ℕ) (x : Bool) => if x then acc * 2 + 1 else acc * 2) 0 := by
        cases b <;> simp <;> omega
      rw [this, ih]
      simp

theorem revealFold_lt (l : List Bool) :
    l.foldl (fun (acc : ℕ) (x : Bool) => if x then acc * 2 + 1 else acc * 2) 0 < 2 ^ l.length := by
  induction l using List.reverseRecOn with
  | nil => simp
  | append_singleton l b ih =>
    rw [revealFold_append, List.length_append, List.length_singleton, pow_succ]
    cases b <;> simp <;> omega

namespace RevealMap

theorem toNat_lt (m : RevealMap) : m.toNat < 2 ^ 12 := by
  have := revealFold_lt m.toList
  simpa [toNat] using this

theorem toNat_testBit (m : RevealMap) (i : ℕ) (h : i < 12) : m.toNat.testBit (11 - i) = m[i] := by
  unfold toNat
  rw [revealFold_testBit, List.getElem?_reverse (by simp; omega)]
  have : m.toList.length - 1 - (11 - i) = i := by simp; omega
  rw [this, List.getElem?_eq_getElem (by simpa using h)]
  simp

theorem toNat_inj {m m' : RevealMap} (h : m.toNat = m'.toNat) : m = m' := by
  ext i hi
  rw [← toNat_testBit m i hi, ← toNat_testBit m' i hi, h]

variable [E : CapEnv]

theorem toScalar_val (m : RevealMap) : m.toScalar.val = m.toNat := natF_val (lt_trans m.toNat_lt (by norm_num))

theorem toScalar_inj {m m' : RevealMap} (h : m.toScalar = m'.toScalar) : m = m' := by
  have := congrArg ZMod.val h
  rw [toScalar_val, toScalar_val] at this
  exact toNat_inj this

theorem mapBit_toScalar (m : RevealMap) (i : ℕ) (h : i < 12) : mapBit m.toScalar i = m[i] := by
  unfold mapBit
  rw [toScalar_val, toNat_testBit m i h]

end RevealMap

end Cap
