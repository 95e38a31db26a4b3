/-
C09: owner and freezer derive the same nullifier.

status: partial
note: The library's functions agree whenever the freezer key is not the identity (C09_library). In the circuits they agree if the owner address is not the neutral point (C09_circuit_partial). FALSE for a record owned by the neutral address, whose secret key is 0: the freezer path then takes the freezer's secret key itself as nullifier key while the user path hashes the shared point (C09_circuit_false, for every instantiation; in the toy instantiation the two nullifiers are shown to differ). C09_library_circuit: on a record owned by the neutral address the library's freezer nullifier is the one of the user, so that FreezeNote::generate cannot make a proof.
-/
import Verif.Lemmas.Spends

namespace Cap

open Spec

variable [E : CapEnv]

/-- **Library.**  With the freezer's public key, the owner derives the nullifier that the freezer derives with the
owner's address. -/
theorem C09_library (user : UserKeyPair) (freezer : FreezerKeyPair)
    (pair : freezer.pub_key = smulFr freezer.sec_key E.gen) (set : freezer.pub_key ≠ 0) (uid : U64) (rc : F) :
    user.nullify freezer.pub_key uid rc = freezer.nullify user.address uid rc := by
  unfold UserKeyPair.nullify FreezerKeyPair.nullify UserKeyPair.deriveNullifierKey FreezerKeyPair.deriveNullifierKey
    computeNullifierKey UserKeyPair.address
  rw [if_neg set, pair, smulFr_comm]

/-- **Library, generated key pairs.** -/
theorem C09_library_generated (user : UserKeyPair) {s : Fr} (hs : s ≠ 0) (uid : U64) (rc : F) :
    user.nullify (FreezerKeyPair.generate s).pub_key uid rc =
      (FreezerKeyPair.generate s).nullify user.address uid rc := by
  refine C09_library user _ rfl ?_ uid rc
  intro h
  exact hs (smulFr_gen_inj (h.trans (smulFr_zero _).symm))

/-- **Circuits.**  If a record can be spent by a user and by a freezer, with whatever representatives of the secret
scalars, both paths give the same nullifier, provided the owner is not the neutral address. -/
theorem C09_circuit_partial {v : RecordV} {acc : AccV} {sku skf : F} (hu : SpendOk v sku .user)
    (hf : SpendOk v skf .freezer) (freezer_set : v.policy.freezer_pk ≠ neutral)
    (owner_set : v.owner_addr ≠ neutral) :
    spendNullifier v acc sku .user = spendNullifier v acc skf .freezer := by
  have h1 : E.xy (sku.val • E.gen) = v.owner_addr := hu.2
  have h2 : E.xy (skf.val • E.gen) = v.policy.freezer_pk := hf.2
  unfold spendNullifier
  congr 1
  unfold deriveNullifierKeyV spendOtherPk
  simp only
  rw [if_neg freezer_set, if_neg owner_set, ← h1, ← h2, E.ecMul_xy, E.ecMul_xy, ← mul_nsmul, ← mul_nsmul,
    Nat.mul_comm]

/-- a record that belongs to nobody: its owner is the neutral address, whose secret key is 0 -/
def unowned (v : RecordV) : RecordV := { v with owner_addr := neutral }

/-- **Negation.**  A record owned by the neutral address can be spent by a user (with the secret 0) and by its freezer.
The user publishes `prf (hash3 0 1 0) [uid, commitment]`, the freezer `prf s [uid, commitment]`: these differ, or the
PRF collides on the two keys. -/
theorem C09_circuit_false (v : RecordV) (acc : AccV) {s : Fr} (hs : s ≠ 0)
    (freezer : v.policy.freezer_pk = E.xy (smulFr s E.gen)) (keys : frToFq s ≠ E.hash3 0 1 0) :
    SpendOk (unowned v) 0 .user ∧ SpendOk (unowned v) (frToFq s) .freezer ∧
      (unowned v).policy.freezer_pk ≠ neutral ∧
      (spendNullifier (unowned v) acc 0 .user ≠ spendNullifier (unowned v) acc (frToFq s) .freezer ∨
        Collides (fun k => E.prf k [acc.uid, (unowned v).commitment]) (frToFq s) (E.hash3 0 1 0)) := by
  have hset : (unowned v).policy.freezer_pk ≠ neutral := by
    show v.policy.freezer_pk ≠ neutral
    rw [freezer, Ne, xy_eq_neutral]
    exact fun h => hs (smulFr_gen_inj (h.trans (smulFr_zero _).symm))
  refine ⟨⟨?_, ?_⟩, ⟨frToFq_ok _, ?_⟩, hset, ?_⟩
  · simp [okScalar]
  · show E.xy ((0 : F).val • E.gen) = neutral
    rw [ZMod.val_zero, zero_nsmul, E.xy_zero]; rfl
  · rw [deriveUserAddressV_frToFq, ← freezer]; rfl
  · have hu : spendNullifier (unowned v) acc 0 .user = E.prf (E.hash3 0 1 0) [acc.uid, (unowned v).commitment] := by
      unfold spendNullifier nullifyV deriveNullifierKeyV spendOtherPk
      simp only
      rw [if_neg hset]
      show E.prf (E.hash3 (E.ecMul (0 : F).val v.policy.freezer_pk).1 (E.ecMul (0 : F).val v.policy.freezer_pk).2 0) _ = _
      rw [freezer, E.ecMul_xy, ZMod.val_zero, zero_nsmul, E.xy_zero]
    have hf : spendNullifier (unowned v) acc (frToFq s) .freezer = E.prf (frToFq s) [acc.uid, (unowned v).commitment] := by
      unfold spendNullifier nullifyV deriveNullifierKeyV spendOtherPk
      simp only [unowned, if_true]
    rw [hu, hf]
    by_cases h : E.prf (E.hash3 0 1 0) [acc.uid, (unowned v).commitment] =
        E.prf (frToFq s) [acc.uid, (unowned v).commitment]
    · exact Or.inr ⟨keys, h.symm⟩
    · exact Or.inl h

/-- **Library against circuit.**  For an owner that is not the neutral address the library's freezer nullifier is the
circuit's; for the neutral address it is the user's, with the same exception as above. -/
theorem C09_library_circuit (ro : RecordOpening) (acc : AccMemberWitness) (k : FreezerKeyPair) :
    (ro.pub_key.address ≠ 0 → spendNullifier ro.toV acc.toV (frToFq k.sec_key) .freezer =
      k.nullify ro.pub_key.address acc.uid ro.commitment) ∧
    (ro.pub_key.address = 0 → k.nullify ro.pub_key.address acc.uid ro.commitment =
      E.prf (E.hash3 0 1 0) [(acc.uid.val : F), ro.commitment]) := by
  refine ⟨spendNullifier_freezer ro acc k, fun h => ?_⟩
  unfold FreezerKeyPair.nullify FreezerKeyPair.deriveNullifierKey computeNullifierKey nullifyWithKey ptX ptY
  rw [h, smulFr_pt_zero, E.xy_zero]

end Cap

namespace Cap.Examples
open Toy Spec

/-- Alice and the example freezer -/
example : freezer.pub_key = smulFr freezer.sec_key E.gen ∧ freezer.pub_key ≠ 0 := ⟨rfl, by decide +kernel⟩

/-- Alice's record of the asset can be spent by Alice and by the freezer -/
example : SpendOk assetRec.toV (frToFq alice.sk) .user ∧ SpendOk assetRec.toV (frToFq freezer.sec_key) .freezer ∧
    assetRec.toV.policy.freezer_pk ≠ neutral ∧ assetRec.toV.owner_addr ≠ neutral := by decide +kernel

/-- in the toy instantiation the two nullifiers of an unowned record differ -/
example : assetRec.toV.policy.freezer_pk = E.xy (smulFr freezer.sec_key E.gen) ∧
    frToFq freezer.sec_key ≠ E.hash3 0 1 0 ∧
    spendNullifier (unowned assetRec.toV) acc1.toV 0 .user ≠
      spendNullifier (unowned assetRec.toV) acc1.toV (frToFq freezer.sec_key) .freezer := by decide +kernel

end Cap.Examples
