/-
C22: fee collection is exact.

status: proved
note: calculate_fee is ok exactly when the natural-number sum fits in 128 bits and then equals it; the fee records are one native, unfrozen record per fee, in order; empty or mismatched lists are errors.
-/
import Verif.Lemmas.Sum
import Verif.Model.Toy

namespace Cap

variable [E : CapEnv]

/-- the fee that a transaction publishes -/
def Spec.publishedFee [S : CapExt] : TransactionNote → ℕ
  | .transfer n => n.aux_info.fee.val
  | .mint n => n.aux_info.fee.val
  | .freeze n => n.aux_info.fee.val

theorem map_fee [S : CapExt] (txns : List TransactionNote) :
    txns.map Spec.publishedFee = txns.map (fun t => t.fee.val) := by
  refine List.map_congr_left (fun t _ => ?_)
  cases t <;> rfl

theorem calculateFee_ok [S : CapExt] (txns : List TransactionNote) (a : Amount) :
    calculateFee txns = .ok a ↔ (txns.map (fun t => t.fee.val)).sum = a.val := by
  have h := safeSumAmount_eq_some (txns.map TransactionNote.fee) a
  rw [List.map_map] at h
  change _ ↔ (txns.map (fun t => t.fee.val)).sum = a.val at h
  unfold calculateFee
  cases hs : safeSumAmount (txns.map TransactionNote.fee) with
  | none => rw [hs] at h; simpa using h
  | some b => rw [hs] at h; simpa using h

theorem calculateFee_overflow [S : CapExt] (txns : List TransactionNote) :
    calculateFee txns = .error .incorrectFee ↔ 2 ^ 128 ≤ (txns.map (fun t => t.fee.val)).sum := by
  have h := safeSumAmount_eq_none (txns.map TransactionNote.fee)
  rw [List.map_map] at h
  change _ ↔ 2 ^ 128 ≤ (txns.map (fun t => t.fee.val)).sum at h
  unfold calculateFee
  cases hs : safeSumAmount (txns.map TransactionNote.fee) with
  | none => rw [hs] at h; simpa using h
  | some b => rw [hs] at h; simpa using h

/-- `calculate_fee` returns `a` exactly when `a` is the sum of the published fees as natural numbers. -/
theorem C22_calculate_fee [S : CapExt] (txns : List TransactionNote) (a : Amount) :
    calculateFee txns = .ok a ↔ (txns.map Spec.publishedFee).sum = a.val := by
  rw [map_fee, calculateFee_ok]

/-- When the sum does not fit in 128 bits the answer is an error; it never wraps and never panics. -/
theorem C22_calculate_fee_overflow [S : CapExt] (txns : List TransactionNote) :
    calculateFee txns = .error .incorrectFee ↔ 2 ^ 128 ≤ (txns.map Spec.publishedFee).sum := by
  rw [map_fee, calculateFee_overflow]

/-- `derive_txns_fee_records` succeeds exactly when there is at least one fee and as many collectors and
blinding factors as fees. -/
theorem C22_records_ok (collectors : List UserPubKey) (fees : List Amount) (blinds : List F) :
    (∃ rcs, deriveTxnsFeeRecords collectors fees blinds = .ok rcs) ↔
      fees ≠ [] ∧ collectors.length = fees.length ∧ blinds.length = fees.length := by
  unfold deriveTxnsFeeRecords
  split
  · rename_i h; simp [h]
  · rename_i h
    split
    · rename_i h'
      simp only [reduceCtorEq, exists_false, ne_eq, h, not_false_eq_true, true_and, false_iff, not_and]
      intro h1 h2
      rcases h' with h' | h'
      · exact h' h1.symm
      · exact h' h2.symm
    · rename_i h'
      simp only [not_or, not_not] at h'
      simp only [Except.ok.injEq, exists_eq', ne_eq, h, not_false_eq_true, true_and, true_iff]
      exact ⟨h'.1.symm, h'.2.symm⟩

/-- An unusable call is an error, not a panic. -/
theorem C22_records_err (collectors : List UserPubKey) (fees : List Amount) (blinds : List F) :
    (fees = [] ∨ collectors.length ≠ fees.length ∨ blinds.length ≠ fees.length) →
      deriveTxnsFeeRecords collectors fees blinds = .error .invalidParameter := by
  intro h
  have hn : ¬ ∃ rcs, deriveTxnsFeeRecords collectors fees blinds = .ok rcs := by
    rw [C22_records_ok]
    tauto
  unfold deriveTxnsFeeRecords at hn ⊢
  split
  · rfl
  · split
    · rfl
    · rename_i h1 h2
      rw [if_neg h1, if_neg h2] at hn
      exact absurd ⟨_, rfl⟩ hn

/-- The result has one commitment per fee, and the `i`-th one commits to the record with the `i`-th fee, the
native asset, the `i`-th collector as owner, unfrozen, with the `i`-th blinding factor. -/
theorem C22_records (collectors : List UserPubKey) (fees : List Amount) (blinds : List F) (rcs : List F)
    (h : deriveTxnsFeeRecords collectors fees blinds = .ok rcs) :
    rcs.length = fees.length ∧
    ∀ (i : ℕ) (fee : Amount) (pk : UserPubKey) (bl : F),
      fees[i]? = some fee → collectors[i]? = some pk → blinds[i]? = some bl →
      rcs[i]? = some (RecordOpening.commitment
        { amount := fee, asset_def := AssetDefinition.native, pub_key := pk, freeze_flag := .unfrozen, blind := bl }) := by
  obtain ⟨-, hc, hb⟩ := (C22_records_ok collectors fees blinds).1 ⟨_, h⟩
  unfold deriveTxnsFeeRecords at h
  split at h
  · cases h
  · split at h
    · cases h
    · cases h
      refine ⟨by simp [hc, hb], ?_⟩
      intro i fee pk bl h1 h2 h3
      have h23 : (collectors.zip blinds)[i]? = some (pk, bl) := List.getElem?_zip_eq_some.2 ⟨h2, h3⟩
      have h123 : (fees.zip (collectors.zip blinds))[i]? = some (fee, pk, bl) :=
        List.getElem?_zip_eq_some.2 ⟨h1, h23⟩
      rw [List.getElem?_map, h123]
      rfl

end Cap

/-! Non-vacuity -/

namespace Cap.Examples
open Toy

/-- a mint note that carries a given fee -/
noncomputable def noteWithFee (fee : Amount) : TransactionNote :=
  .mint ⟨1, 2, 3, 4, AssetDefinition.native, 5, ([] : List Byte), ⟨(0 : ZMod r), []⟩, ⟨0, fee, (0 : ZMod r)⟩⟩

example : calculateFee [noteWithFee 7, noteWithFee 5] = .ok 12 := by
  rw [C22_calculate_fee]; decide
example : calculateFee [noteWithFee (Fin.ofNat _ (2 ^ 128 - 1)), noteWithFee 5] = .error .incorrectFee := by
  rw [C22_calculate_fee_overflow]; decide
example : ∃ rcs, deriveTxnsFeeRecords [⟨(3 : ZMod r), (9 : UInt8)⟩, ⟨(4 : ZMod r), (9 : UInt8)⟩] [7, 8] [1, 2]
    = .ok rcs ∧ rcs.length = 2 := ⟨_, rfl, rfl⟩

end Cap.Examples
