/-
C42: note accessors are consistent.

status: proved
note: The verifier's vector of public inputs is given explicitly in terms of the accessors, for each kind of note, whenever the instance check passes.
-/
import Verif.Lemmas.Verify
import Verif.Props.C17
import Verif.Props.C18
import Verif.Props.C19

namespace Cap

variable [E : CapEnv] [S : CapExt]

/-- `output_len` is the number of output commitments. -/
theorem C42_output_len (t : TransactionNote) : t.outputLen = t.outputCommitments.length := by
  cases t <;> rfl

/-- The vector of public inputs the verifier hands to the proof system, written with the accessors: for a
transfer or freeze note `nullifiers` and `output_commitments` appear in it in full and in order, for a mint
note its one nullifier and both commitments do; and the root in it is `merkle_root`, which is also the root the
note was checked against. -/
theorem C42_bound (t : TransactionNote) (root : F) (ts : U64) (xs : List F)
    (h : t.publicScalars root ts = .ok xs) :
    root = t.merkleRoot ∧
    match t with
    | .transfer n => xs = [t.merkleRoot, 1, (n.aux_info.valid_until.val : F), Amount.toF t.fee] ++ t.nullifiers ++
        t.outputCommitments ++ n.viewing_memo.toScalars
    | .mint n => ∃ nl chg mint rest, t.nullifiers = [nl] ∧ t.outputCommitments = [chg, mint] ∧
        xs = [t.merkleRoot, 1, nl, Amount.toF t.fee, mint, chg, Amount.toF n.mint_amount, n.mint_asset_def.code,
          n.mint_internal_asset_code] ++ rest ∧
        rest = n.mint_asset_def.policy.toScalars ++ n.viewing_memo.toScalars
    | .freeze _ => xs = [t.merkleRoot, 1, Amount.toF t.fee] ++ t.nullifiers ++ t.outputCommitments := by
  cases t with
  | transfer n =>
    simp only [TransactionNote.publicScalars, bind_ok_iff, TransferNote.checkInstance_ok] at h
    obtain ⟨pi, ⟨h1, -, rfl⟩, h4⟩ := h
    cases h4
    exact ⟨h1, rfl⟩
  | mint n =>
    simp only [TransactionNote.publicScalars, bind_ok_iff, MintNote.checkInstance_ok] at h
    obtain ⟨pi, ⟨h1, rfl⟩, h4⟩ := h
    cases h4
    exact ⟨h1, _, _, _, _, rfl, rfl, rfl, rfl⟩
  | freeze n =>
    simp only [TransactionNote.publicScalars, bind_ok_iff, FreezeNote.checkInstance_ok] at h
    obtain ⟨pi, ⟨h1, rfl⟩, h4⟩ := h
    cases h4
    exact ⟨h1, rfl⟩

/-- What an accepted note was verified against: `merkle_root`, and a proof of the public inputs listed in
`C42_bound` bound to the note's memo verification key. -/
theorem C42_verified (root : F) (ts : U64) :
    (∀ (n : TransferNote) vk, n.verify vk root ts = .ok () → root = (TransactionNote.transfer n).merkleRoot ∧
      ∃ xs, (TransactionNote.transfer n).publicScalars root ts = .ok xs ∧
        S.verify vk.key xs (TransactionNote.transfer n).validityProof (TransactionNote.transfer n).extMsg = true) ∧
    (∀ (n : MintNote) vk, n.verify vk root = .ok () → root = (TransactionNote.mint n).merkleRoot ∧
      ∃ xs, (TransactionNote.mint n).publicScalars root ts = .ok xs ∧
        S.verify vk.key xs (TransactionNote.mint n).validityProof (TransactionNote.mint n).extMsg = true) ∧
    (∀ (n : FreezeNote) vk, n.verify vk root = .ok () → root = (TransactionNote.freeze n).merkleRoot ∧
      ∃ xs, (TransactionNote.freeze n).publicScalars root ts = .ok xs ∧
        S.verify vk.key xs (TransactionNote.freeze n).validityProof (TransactionNote.freeze n).extMsg = true) := by
  refine ⟨fun n vk h => ?_, fun n vk h => ?_, fun n vk h => ?_⟩
  · obtain ⟨h1, h2, h3⟩ := TransferNote.verify_ok.1 h
    refine ⟨h1, _, ?_, h3⟩
    simp only [TransactionNote.publicScalars, bind_ok_iff, TransferNote.checkInstance_ok]
    exact ⟨_, ⟨h1, h2, rfl⟩, rfl⟩
  · obtain ⟨h1, -, h3⟩ := MintNote.verify_ok.1 h
    refine ⟨h1, n.pub.toScalars, ?_, by simpa [TransactionNote.extMsg, TransactionNote.validityProof, TransactionNote.txnMemoVerKey] using h3⟩
    simp only [TransactionNote.publicScalars, bind_ok_iff, MintNote.checkInstance_ok]
    exact ⟨_, ⟨h1, rfl⟩, rfl⟩
  · obtain ⟨h1, h3⟩ := FreezeNote.verify_ok.1 h
    refine ⟨h1, n.pub.toScalars, ?_, by simpa [TransactionNote.extMsg, TransactionNote.validityProof, TransactionNote.txnMemoVerKey] using h3⟩
    simp only [TransactionNote.publicScalars, bind_ok_iff, FreezeNote.checkInstance_ok]
    exact ⟨_, ⟨h1, rfl⟩, rfl⟩

end Cap

namespace Cap.Examples
open Toy

/-- the instance check passes for an accepted note of each kind -/
example : (∃ xs, (TransactionNote.transfer xfrNote).publicScalars xfrNote.aux_info.merkle_root 900 = .ok xs) ∧
    (∃ xs, (TransactionNote.mint mintNote).publicScalars mintNote.aux_info.merkle_root 900 = .ok xs) ∧
    ∃ xs, (TransactionNote.freeze frzNote).publicScalars frzNote.aux_info.merkle_root 900 = .ok xs := by
  obtain ⟨-, x1, h1, -⟩ := (C42_verified _ _).1 _ _ (xfrNote_verify 900 (by decide))
  obtain ⟨-, x2, h2, -⟩ := (C42_verified _ 900).2.1 _ _ mintNote_verify
  obtain ⟨-, x3, h3, -⟩ := (C42_verified _ 900).2.2 _ _ frzNote_verify
  exact ⟨⟨x1, h1⟩, ⟨x2, h2⟩, ⟨x3, h3⟩⟩

end Cap.Examples
