/-
Generated notes are opened by the assignment made from the host's records; the example notes in particular.
-/
import Verif.Lemmas.Accepted
import Verif.Model.ToyNotes

namespace Cap

open Spec

variable [E : CapEnv] [S : CapExt]

/-- A generated transfer note is opened by its witness; the records in it are the given ones. -/
theorem transfer_generated {b : Build} {rng : TransferRand} {inputs : List TransferNoteInput}
    {outputs : List RecordOpening} {pk : TransferProvingKey} {valid_until : U64} {extra : List Byte}
    {n : TransferNote} {sk : Fr} (gen : TransferNote.generate b rng inputs outputs pk valid_until extra = .ok (n, sk)) :
    ∃ w : TransferWitness, OpensTransfer pk.n_inputs pk.n_outputs pk.tree_depth.val n w.toV ∧
      w.toV.inputs.map (·.ro) = inputs.map (·.ro.toV) ∧ w.toV.outputs = outputs.map RecordOpening.toV ∧
      w.asset_def = witnessAssetDef inputs ∧ w.enc_rand = rng.enc_rand := by
  obtain ⟨w, pub, h⟩ := TransferNote.generate_ok.1 gen
  obtain ⟨h1, h2, h3, h4⟩ := newUnchecked_ok.1 h.witness
  have hro := secrets_ro h4
  refine ⟨w, ⟨?_, ?_⟩, ?_, ?_, h1, h3⟩
  · rw [h.pub_note]; exact h.shape h.sat
  · rw [h.pub_note]; exact h.sat
  · have := congrArg (List.map RecordOpening.toV) hro
    simp only [List.map_map] at this
    simp only [TransferWitness.toV, List.map_map]
    exact this
  · simp only [TransferWitness.toV, h2]

/-- A generated mint note of a mintable amount is opened by its witness. -/
theorem mint_generated {rng : TransferRand} {mint_ro : RecordOpening} {ac_seed : F} {desc : List Byte}
    {fee : TxnFeeInfo} {pk : MintProvingKey} {n : MintNote} {sk : Fr}
    (gen : MintNote.generate rng mint_ro ac_seed desc fee pk = .ok (n, sk)) (hr : mint_ro.amount.val < 2 ^ 127) :
    OpensMint pk.tree_depth.val n (mintWitnessOf rng.enc_rand mint_ro ac_seed desc fee).toV := by
  have h := MintNote.generate_ok.1 gen
  constructor
  · rw [h.pub]; exact mint_shape h.checks
  · rw [h.pub]; exact mint_sat h.checks hr

/-- A generated freeze note is opened by its witness. -/
theorem freeze_generated {rng : FreezeRand} {inputs : List FreezeNoteInput} {fee : TxnFeeInfo} {pk : FreezeProvingKey}
    {n : FreezeNote} {sk : Fr} {outs : List RecordOpening}
    (gen : FreezeNote.generate rng inputs fee pk = .ok (n, sk, outs))
    (hf : fee.fee_input.acc.path.length = pk.tree_depth.val)
    (hi : ∀ i ∈ inputs, i.acc.path.length = pk.tree_depth.val) :
    OpensFreeze pk.num_input pk.tree_depth.val n (freezeWitV rng.blinds inputs fee) := by
  have h := FreezeNote.generate_ok.1 gen
  refine ⟨freezePubV rng.blinds inputs fee, ?_, h.shape hf hi, h.sat.1⟩
  rw [h.pub]
  rfl

end Cap

namespace Cap.Toy

open Spec

/-- the example transfer is opened by the records it was made from -/
theorem xfr_opens : ∃ w : TransferWitness, OpensTransfer 3 3 1 xfrNote w.toV ∧
    w.toV.inputs.map (·.ro) = [feeRec, assetRec, dummyRec].map RecordOpening.toV ∧
    w.toV.outputs = xfrOutputs.map RecordOpening.toV ∧ w.asset_def = asset := by
  obtain ⟨w, h, h1, h2, h3, -⟩ := transfer_generated xfrNote_eq
  exact ⟨w, h, h1, h2, h3.trans (by decide +kernel)⟩

/-- the example mint is opened -/
theorem mint_opens : OpensMint 1 mintNote (mintWitnessOf rng.enc_rand mintRec seed desc feeInfo).toV :=
  mint_generated mintNote_eq (by decide +kernel)

/-- the example freeze is opened -/
theorem frz_opens : OpensFreeze 4 1 frzNote (freezeWitV frzRng.blinds frzInputs feeInfo) :=
  freeze_generated frzNote_eq (by decide +kernel) (by decide +kernel)

end Cap.Toy
