/-
What generated notes publish, in terms of the records and key pairs they were generated from.
-/
import Verif.Lemmas.Opened

namespace Cap

open Spec

variable [E : CapEnv] [S : CapExt]

omit S in
/-- the nullifier of a record, derived with the owner's key pair -/
def userNullifier (ro : RecordOpening) (acc : AccMemberWitness) (k : UserKeyPair) : F :=
  k.nullify ro.asset_def.policy.freezer_pk acc.uid ro.commitment

theorem transfer_nullifiers {b : Build} {rng : TransferRand} {inputs : List TransferNoteInput}
    {outputs : List RecordOpening} {pk : TransferProvingKey} {valid_until : U64} {extra : List Byte}
    {n : TransferNote} {sk : Fr} (gen : TransferNote.generate b rng inputs outputs pk valid_until extra = .ok (n, sk)) :
    n.inputs_nullifiers = inputs.map (fun i => userNullifier i.ro i.acc i.owner_keypair) := by
  obtain ⟨w, pub, h⟩ := TransferNote.generate_ok.1 gen
  obtain ⟨-, -, -, h4⟩ := newUnchecked_ok.1 h.witness
  obtain ⟨s0, ss, o0, os, hf⟩ := fromWitness_ok.1 h.pub_eq
  rw [h.nullifiers, hf.nullifiers]
  refine (forall₂_map_eq (fun a b hab => ?_) h4).symm
  obtain ⟨e1, e2, e3, -⟩ := inputSecretOf_ok.1 hab
  simp only [userNullifier, InputSecret.nullifier, e1, e2, e3]

theorem transfer_commitments {b : Build} {rng : TransferRand} {inputs : List TransferNoteInput}
    {outputs : List RecordOpening} {pk : TransferProvingKey} {valid_until : U64} {extra : List Byte}
    {n : TransferNote} {sk : Fr} (gen : TransferNote.generate b rng inputs outputs pk valid_until extra = .ok (n, sk)) :
    n.output_commitments = outputs.map RecordOpening.commitment := by
  obtain ⟨w, pub, h⟩ := TransferNote.generate_ok.1 gen
  obtain ⟨-, h2, -, -⟩ := newUnchecked_ok.1 h.witness
  obtain ⟨s0, ss, o0, os, hf⟩ := fromWitness_ok.1 h.pub_eq
  rw [h.commitments, hf.commitments, h2]

/-- the owners' key pairs were given -/
theorem transfer_owners {b : Build} {rng : TransferRand} {inputs : List TransferNoteInput}
    {outputs : List RecordOpening} {pk : TransferProvingKey} {valid_until : U64} {extra : List Byte}
    {n : TransferNote} {sk : Fr} (gen : TransferNote.generate b rng inputs outputs pk valid_until extra = .ok (n, sk)) :
    ∀ i ∈ inputs, i.ro.asset_def ≠ AssetDefinition.dummy → i.ro.pub_key = i.owner_keypair.pubKey := by
  obtain ⟨w, pub, h⟩ := TransferNote.generate_ok.1 gen
  have := h.pub_keys
  unfold transferCheckInputPubKeys at this
  rw [ensure_ok_iff] at this
  simp only [List.all_eq_true, List.mem_filter, Bool.not_eq_true', decide_eq_true_eq, and_imp] at this
  exact fun i hi hd => this i hi (by rw [Bool.eq_false_iff]; exact fun h => hd (AssetDefinition.isDummy_iff.1 h))

/-- the nullifiers of a generated freeze note -/
theorem freeze_nullifiers {rng : FreezeRand} {inputs : List FreezeNoteInput} {fee : TxnFeeInfo}
    {pk : FreezeProvingKey} {n : FreezeNote} {sk : Fr} {outs : List RecordOpening}
    (gen : FreezeNote.generate rng inputs fee pk = .ok (n, sk, outs)) :
    n.input_nullifiers = userNullifier fee.fee_input.ro fee.fee_input.acc fee.fee_input.owner_keypair ::
      inputs.map (fun i => i.keypair.nullify i.ro.pub_key.address i.acc.uid i.ro.commitment) := by
  have h := FreezeNote.generate_ok.1 gen
  have := congrArg FreezePublicInput.input_nullifiers h.pub
  rw [userNullifier, h.checks.fee_ok.fee_native]
  exact this

/-- the nullifier of a generated mint note -/
theorem mint_nullifier {rng : TransferRand} {mint_ro : RecordOpening} {ac_seed : F} {desc : List Byte}
    {fee : TxnFeeInfo} {pk : MintProvingKey} {n : MintNote} {sk : Fr}
    (gen : MintNote.generate rng mint_ro ac_seed desc fee pk = .ok (n, sk)) :
    n.input_nullifier = userNullifier fee.fee_input.ro fee.fee_input.acc fee.fee_input.owner_keypair :=
  congrArg MintPublicInput.input_nullifier (MintNote.generate_ok.1 gen).pub

/-- the fee input of a generated freeze note belongs to the given key pair -/
theorem freeze_fee_owner {rng : FreezeRand} {inputs : List FreezeNoteInput} {fee : TxnFeeInfo}
    {pk : FreezeProvingKey} {n : FreezeNote} {sk : Fr} {outs : List RecordOpening}
    (gen : FreezeNote.generate rng inputs fee pk = .ok (n, sk, outs)) :
    fee.fee_input.ro.pub_key.address = fee.fee_input.owner_keypair.address :=
  (SpendOk_user_host _ _).1 (FreezeNote.generate_ok.1 gen).sat.1.spend

end Cap
