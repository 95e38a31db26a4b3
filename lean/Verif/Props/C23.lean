/-
C23: fee change is exact.

status: proved
note: For every fee input and fee; the last clause (passing the fee check of generate) is proved for native fee records with a correct Merkle path, and its converse gives what check_fee enforces.
-/
import Verif.Lemmas.Sum
import Verif.Model.Toy

namespace Cap

variable [E : CapEnv]

/-- `TxnFeeInfo::new` succeeds exactly when the record covers the fee; otherwise it is an error, not a panic. -/
theorem C23_new_ok (blind : F) (fi : FeeInput) (fee : Amount) :
    ((∃ x, TxnFeeInfo.new blind fi fee = .ok x) ↔ fee.val ≤ fi.ro.amount.val) ∧
    (fi.ro.amount.val < fee.val → TxnFeeInfo.new blind fi fee = .error .invalidParameter) := by
  unfold TxnFeeInfo.new
  by_cases h : fi.ro.amount < fee
  · have h' : fi.ro.amount.val < fee.val := h
    rw [if_pos h]
    simp only [reduceCtorEq, exists_false, false_iff, not_le, h', implies_true, and_self]
  · have h' : ¬ fi.ro.amount.val < fee.val := h
    rw [if_neg h]
    simp only [Except.ok.injEq, exists_eq', true_iff]
    exact ⟨not_lt.1 h', fun h2 => absurd h2 h'⟩

/-- The change record: `change = amount - fee` over the natural numbers, same key, native, unfrozen; the
returned change record is the one inside the fee info, and the fee info has the given input and fee. -/
theorem C23_change (blind : F) (fi : FeeInput) (fee : Amount) (info : TxnFeeInfo) (chg : RecordOpening)
    (h : TxnFeeInfo.new blind fi fee = .ok (info, chg)) :
    chg.amount.val + fee.val = fi.ro.amount.val ∧ chg.pub_key = fi.ro.pub_key ∧
    chg.asset_def = AssetDefinition.native ∧ chg.freeze_flag = .unfrozen ∧ chg.blind = blind ∧
    info.fee_chg_ro = chg ∧ info.fee_input = fi ∧ info.fee_amount = fee := by
  unfold TxnFeeInfo.new at h
  split at h
  · cases h
  · rename_i hlt
    have hle : fee ≤ fi.ro.amount := not_lt.1 hlt
    cases h
    have : (fi.ro.amount - fee).val = fi.ro.amount.val - fee.val := Fin.sub_val_of_le hle
    have hle' : fee.val ≤ fi.ro.amount.val := hle
    refine ⟨by simp only [this]; omega, rfl, rfl, rfl, rfl, rfl, rfl, rfl⟩

/-- What the fee check of `generate` accepts: exactly a fee info whose change is exact, both records native,
the change owned by the owner of the input, and the input in the tree. -/
theorem C23_check_fee (info : TxnFeeInfo) :
    checkFee info = .ok () ↔
      info.fee_chg_ro.amount.val + info.fee_amount.val = info.fee_input.ro.amount.val ∧
      info.fee_input.ro.asset_def = AssetDefinition.native ∧
      info.fee_chg_ro.asset_def = AssetDefinition.native ∧
      info.fee_chg_ro.pub_key = info.fee_input.ro.pub_key ∧
      merkleRoot (info.fee_input.acc.uid.val : F) info.fee_input.ro.commitment info.fee_input.acc.path =
        info.fee_input.acc.root := by
  have key : (¬ info.fee_amount > info.fee_input.ro.amount ∧
      info.fee_input.ro.amount - info.fee_amount = info.fee_chg_ro.amount) ↔
      info.fee_chg_ro.amount.val + info.fee_amount.val = info.fee_input.ro.amount.val := by
    constructor
    · rintro ⟨h1, h2⟩
      have hle : info.fee_amount ≤ info.fee_input.ro.amount := not_lt.1 h1
      have hle' : info.fee_amount.val ≤ info.fee_input.ro.amount.val := hle
      have := Fin.sub_val_of_le hle
      rw [← h2, this]
      omega
    · intro h
      have hle' : info.fee_amount.val ≤ info.fee_input.ro.amount.val := by omega
      have hle : info.fee_amount ≤ info.fee_input.ro.amount := hle'
      refine ⟨not_lt.2 hle, Fin.ext ?_⟩
      rw [Fin.sub_val_of_le hle]
      omega
  unfold checkFee
  simp only [bind_ok_iff, ensure_ok_iff, exists_const, Bool.not_eq_true', decide_eq_false_iff_not,
    decide_eq_true_eq, AssetDefinition.isNative, merkleCheck]
  rw [← and_assoc, key]

/-- A fee info made by `TxnFeeInfo::new` from a native record that is in the tree passes the fee check. -/
theorem C23_passes_check (blind : F) (fi : FeeInput) (fee : Amount) (info : TxnFeeInfo) (chg : RecordOpening)
    (hn : fi.ro.asset_def = AssetDefinition.native)
    (hm : merkleRoot (fi.acc.uid.val : F) fi.ro.commitment fi.acc.path = fi.acc.root)
    (h : TxnFeeInfo.new blind fi fee = .ok (info, chg)) : checkFee info = .ok () := by
  obtain ⟨h1, h2, h3, -, -, h4, h5, h6⟩ := C23_change blind fi fee info chg h
  rw [C23_check_fee, h4, h5, h6]
  exact ⟨h1, hn, h3, h2, hm⟩

end Cap

/-! Non-vacuity -/

namespace Cap.Examples
open Toy

/-- a fee input for the examples: a native record of 10 in a tree of depth 1 -/
def feeIn1 : FeeInput :=
  let ro : RecordOpening := ⟨10, AssetDefinition.native, (UserKeyPair.pubKey ⟨3, (9 : UInt8)⟩), .unfrozen, 8⟩
  ⟨ro, ⟨[⟨5, 6, .middle⟩], merkleRoot 0 ro.commitment [⟨5, 6, .middle⟩], 0⟩, ⟨3, (9 : UInt8)⟩⟩

example : ∃ x, TxnFeeInfo.new 1 feeIn1 4 = .ok x ∧ x.2.amount = 6 ∧ checkFee x.1 = .ok () :=
  ⟨_, rfl, by decide +kernel, C23_passes_check 1 feeIn1 4 _ _ rfl (by decide +kernel) rfl⟩
example : TxnFeeInfo.new 1 feeIn1 11 = .error .invalidParameter := (C23_new_ok 1 feeIn1 11).2 (by decide)

end Cap.Examples
