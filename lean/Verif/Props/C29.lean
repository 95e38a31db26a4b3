/-
C29: amounts encode faithfully.

status: proved
note: 16-byte little-endian codec, U256 conversion exact, safe summation exact or none.
-/
import Verif.Lemmas.Sum
import Verif.Model.Toy

namespace Cap

/-- An amount is written as 16 bytes, least significant first. -/
theorem C29_serialize_le (a : Amount) :
    a.serialize.length = 16 ∧ ofLe a.serialize = a.val :=
  ⟨leBytes_length _ _, ofLe_leBytes _ _ (lt_of_lt_of_le a.isLt (by norm_num))⟩

/-- Serialization round-trips, whatever follows in the stream. -/
theorem C29_round_trip (a : Amount) (rest : List Byte) :
    Amount.deserialize (a.serialize ++ rest) = .ok (a, rest) := by
  unfold Amount.deserialize
  rw [readExact_append (C29_serialize_le a).1]
  simp only [bind, Except.bind, (C29_serialize_le a).2]
  congr 2
  simp

/-- Deserialization succeeds exactly on inputs of at least 16 bytes, and the input is then the serialization
of the result followed by the rest. -/
theorem C29_deserialize (bs : List Byte) :
    (bs.length < 16 ∧ Amount.deserialize bs = .error .io) ∨
      ∃ a rest, Amount.deserialize bs = .ok (a, rest) ∧ bs = a.serialize ++ rest := by
  by_cases h : bs.length < 16
  · left
    refine ⟨h, ?_⟩
    unfold Amount.deserialize readExact
    rw [if_pos h]
    rfl
  · right
    have hlen : (bs.take 16).length = 16 := by simp; omega
    have hlt := ofLe_lt (bs.take 16)
    rw [hlen] at hlt
    have hlt' : ofLe (bs.take 16) < 2 ^ 128 := lt_of_lt_of_le hlt (by norm_num)
    refine ⟨⟨ofLe (bs.take 16), hlt'⟩, bs.drop 16, ?_, ?_⟩
    · unfold Amount.deserialize readExact
      rw [if_neg h]
      simp only [bind, Except.bind]
      congr 2
      exact Fin.ext (Nat.mod_eq_of_lt hlt')
    · have : Amount.serialize ⟨ofLe (bs.take 16), hlt'⟩ = bs.take 16 := by
        have := leBytes_ofLe (bs.take 16)
        rwa [hlen] at this
      rw [this, List.take_append_drop]

/-- Conversion from a 256-bit integer succeeds exactly when the value fits in 128 bits, and keeps the
value; the conversion to a 256-bit integer is its inverse. -/
theorem C29_u256 (v : ℕ) (hv : v < 2 ^ 256) (a : Amount) :
    (Amount.tryFromU256 v = .ok a ↔ v = a.toU256) ∧
      (Amount.tryFromU256 v = .error .invalidParameter ↔ 2 ^ 128 ≤ v) := by
  have key : v < 2 ^ 128 → Amount.tryFromU256 v = .ok (Fin.ofNat (2 ^ 128) v) := by
    intro h
    unfold Amount.tryFromU256
    rw [if_pos (by omega), leBytes_take 16 16, ofLe_leBytes _ _ (lt_of_lt_of_le h (by norm_num))]
  have key2 : 2 ^ 128 ≤ v → Amount.tryFromU256 v = .error .invalidParameter := by
    intro h
    unfold Amount.tryFromU256
    rw [if_neg (by omega)]
  unfold Amount.toU256
  by_cases h : v < 2 ^ 128
  · rw [key h]
    simp only [Except.ok.injEq, reduceCtorEq, false_iff]
    refine ⟨?_, by omega⟩
    rw [Fin.ext_iff]
    simp only [Fin.val_ofNat, Nat.mod_eq_of_lt h]
  · rw [key2 (by omega)]
    have := a.isLt
    simp only [reduceCtorEq, false_iff, true_iff]
    constructor <;> omega

/-- `safe_sum_amount` returns the exact sum over the natural numbers, or nothing when it does not fit. -/
theorem C29_safe_sum (l : List Amount) :
    (∀ a, safeSumAmount l = some a ↔ (l.map Fin.val).sum = a.val) ∧
      (safeSumAmount l = none ↔ 2 ^ 128 ≤ (l.map Fin.val).sum) :=
  ⟨safeSumAmount_eq_some l, safeSumAmount_eq_none l⟩

/-! Non-vacuity -/

example : Amount.deserialize [1, 2, 0, 0, 0, 0, 0, 0, 0, 0, 0, 0, 0, 0, 0, 0, 9] = .ok (513, [9]) := by
  decide +kernel
example : Amount.tryFromU256 (2 ^ 128) = .error .invalidParameter := by decide +kernel
example : Amount.tryFromU256 (2 ^ 128 - 1) = .ok (Fin.last _) := by decide +kernel
example : safeSumAmount [1, 2, 3] = some 6 ∧ safeSumAmount [Fin.last _, 1, 3] = none := by decide +kernel

end Cap
