/-
C12: library and circuit agree on commitments, nullifiers, addresses and asset codes.

status: proved
note: For all host values. Besides the four equalities of the claim: Merkle roots (a path accepted by the library's check gives the circuit's root), the gates for ownership of a record, the ElGamal ciphertext, and the credential check. C12_freezer states the one place where library and circuit differ, the freezer's nullifier of a record owned by the neutral address (see C10).
-/
import Verif.Lemmas.Opened
import Verif.Props.C37

namespace Cap

variable [E : CapEnv]

/-- **The claim.**  Commitment, nullifier, user address and internal asset code. -/
theorem C12_same (ro : RecordOpening) (acc : AccMemberWitness) (k : UserKeyPair) (seed : F) (desc : List Byte) :
    ro.toV.commitment = ro.commitment ∧
      spendNullifier ro.toV acc.toV (frToFq k.sk) .user =
        k.nullify ro.asset_def.policy.freezer_pk acc.uid ro.commitment ∧
      deriveUserAddressV (frToFq k.sk) = E.xy k.address ∧
      deriveInternalAssetCodeV seed (E.descDigest desc) = internalCodeOfDesc seed desc :=
  ⟨RecordOpening.toV_commitment ro, spendNullifier_user ro acc k, deriveUserAddressV_frToFq k.sk, rfl⟩

/-- **Ownership.**  The circuit accepts a key for spending a record exactly when it is the owner's (the freezer's). -/
theorem C12_owner (ro : RecordOpening) (k : UserKeyPair) (s : Fr) :
    (SpendOk ro.toV (frToFq k.sk) .user ↔ ro.pub_key.address = k.address) ∧
      (SpendOk ro.toV (frToFq s) .freezer ↔ ro.asset_def.policy.freezer_pk = (FreezerKeyPair.generate s).pub_key) :=
  ⟨SpendOk_user_host ro k, SpendOk_freezer_host ro s⟩

/-- **Merkle proofs.**  The library accepts a membership proof of a record exactly when the circuit computes the proof's
root from it. -/
theorem C12_merkle (ro : RecordOpening) (acc : AccMemberWitness) :
    merkleCheck acc ro.commitment = true ↔ spendRoot ro.toV acc.toV = acc.root := by
  rw [merkleCheck_iff, spendRoot_host]

/-- **Viewing memos.**  The circuit recomputes the library's ciphertext. -/
theorem C12_memo (pk : Pt) (rand : Fr) (msg : List F) :
    (viewerEncrypt pk rand msg).toV = MemoV.derive (E.xy pk) msg (frToFq rand) := viewerEncrypt_toV pk rand msg

/-- **Credentials.**  The library accepts a credential at a time up to its expiry exactly when the circuit's signature
check does. -/
theorem C12_cred (c : ExpirableCredential) (now : U64) :
    c.verify now = .ok () ↔ now ≤ c.expiry ∧ c.toV.sigValid = true := C37_verify_any c now

/-- **Freezer nullifiers.**  Equal for every owner but the neutral address; for that address the circuit uses the
secret key itself. -/
theorem C12_freezer (ro : RecordOpening) (acc : AccMemberWitness) (k : FreezerKeyPair) :
    spendNullifier ro.toV acc.toV (frToFq k.sec_key) .freezer =
      if ro.pub_key.address = 0 then nullifyWithKey (frToFq k.sec_key) acc.uid ro.commitment
      else k.nullify ro.pub_key.address acc.uid ro.commitment := by
  split
  · rename_i h
    unfold spendNullifier nullifyV nullifyWithKey
    rw [RecordOpening.toV_commitment, show spendOtherPk ro.toV .freezer = E.xy ro.pub_key.address from rfl,
      deriveNullifierKeyV_host, if_pos h]
    rfl
  · rename_i h
    exact spendNullifier_freezer ro acc k h

end Cap

namespace Cap.Examples
open Toy

/-- the two sides are computed values of the toy instantiation, not both constant -/
example : assetRec.toV.commitment = assetRec.commitment ∧ assetRec.commitment ≠ feeRec.commitment ∧
    deriveUserAddressV (frToFq alice.sk) ≠ deriveUserAddressV (frToFq bob.sk) := by
  refine ⟨by decide +kernel, by decide +kernel, by decide +kernel⟩
example : merkleCheck acc1 assetRec.commitment = true ∧ merkleCheck acc1 feeRec.commitment = false := by
  constructor <;> decide +kernel

end Cap.Examples
