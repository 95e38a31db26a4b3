/-
C41: all parts of the library agree on the transferred asset.

status: proved
note: C41_agree: whenever the asset check of generate accepts, there is one definition, not the dummy, that the memo builder returns, the witness carries, and every non-fee output and non-dummy non-fee input has; C41_unique: it is the only definition with that property, unless every non-fee input is a dummy and there is no non-fee output (then it is the native one). C41_generated: the witness and memo of a generated note are about it. An example shows that without the check the memo builder (first definition) and the witness (last definition) do differ.
-/
import Verif.Lemmas.MemoGenerated
import Verif.Model.ToyNotes

namespace Cap

open Spec

variable [E : CapEnv] [S : CapExt]

omit S in
/-- **One asset definition.** -/
theorem C41_agree {inputs : List TransferNoteInput} {outputs : List RecordOpening}
    (check : transferCheckAssetDef (inputs.map (·.ro)) outputs = .ok ()) :
    ∃ ad : AssetDefinition,
      -- the memo builder picks it
      getAssetDefInTransferTxn (inputs.map (·.ro)) = .ok ad ∧
      -- the witness picks it
      (∀ rand w, TransferWitness.newUnchecked rand inputs outputs = .ok w → w.asset_def = ad) ∧
      -- the records have it
      ad ≠ AssetDefinition.dummy ∧
      (∀ i ∈ inputs.tail, i.ro.asset_def = AssetDefinition.dummy ∨ i.ro.asset_def = ad) ∧
      (∀ o ∈ outputs.tail, o.asset_def = ad) ∧
      ((∀ i ∈ inputs.tail, i.ro.asset_def = AssetDefinition.dummy) → ad = AssetDefinition.native) := by
  obtain ⟨ad, h⟩ := transferCheckAssetDef_ok.1 check
  refine ⟨ad, getAssetDef_eq h.toAssetsAgree, fun rand w hw => ?_, h.not_dummy, ?_, h.outs, ?_⟩
  · rw [(newUnchecked_ok.1 hw).1, witnessAssetDef_eq h.toAssetsAgree]
  · intro i hi
    exact h.ins i.ro (by rw [← List.map_tail]; exact List.mem_map_of_mem (f := (·.ro)) hi)
  · intro hd
    refine h.none (fun r hr => ?_)
    rw [← List.map_tail, List.mem_map] at hr
    obtain ⟨i, hi, rfl⟩ := hr
    exact hd i hi

omit S in
/-- **No other definition fits.** -/
theorem C41_unique {inputs : List TransferNoteInput} {outputs : List RecordOpening}
    (check : transferCheckAssetDef (inputs.map (·.ro)) outputs = .ok ()) {ad : AssetDefinition}
    (builder : getAssetDefInTransferTxn (inputs.map (·.ro)) = .ok ad) {ad' : AssetDefinition}
    (moves : (∃ i ∈ inputs.tail, i.ro.asset_def = ad' ∧ ad' ≠ AssetDefinition.dummy) ∨
      ∃ o ∈ outputs.tail, o.asset_def = ad') : ad' = ad := by
  obtain ⟨d, h1, -, -, h2, h3, -⟩ := C41_agree check
  rw [h1] at builder
  cases builder
  rcases moves with ⟨i, hi, rfl, hd⟩ | ⟨o, ho, rfl⟩
  · exact (h2 i hi).resolve_left hd
  · exact h3 o ho

/-- **Generated notes.**  The definition in the witness is the one the memo was built for. -/
theorem C41_generated {b : Build} {rng : TransferRand} {inputs : List TransferNoteInput}
    {outputs : List RecordOpening} {pk : TransferProvingKey} {valid_until : U64} {extra : List Byte}
    {n : TransferNote} {sk : Fr} (gen : TransferNote.generate b rng inputs outputs pk valid_until extra = .ok (n, sk)) :
    ∃ w ad, TransferWitness.newUnchecked rng.enc_rand inputs outputs = .ok w ∧ w.asset_def = ad ∧
      getAssetDefInTransferTxn (inputs.map (·.ro)) = .ok ad ∧
      ViewableMemo.newForTransferNote (inputs.map (·.ro)) outputs (w.input_secrets.map (·.cred)) rng.enc_rand =
        .ok n.viewing_memo ∧
      (∀ i ∈ inputs.tail, i.ro.asset_def = AssetDefinition.dummy ∨ i.ro.asset_def = ad) ∧
      (∀ o ∈ outputs.tail, o.asset_def = ad) := by
  obtain ⟨w, pub, h⟩ := TransferNote.generate_ok.1 gen
  obtain ⟨ad, h1, h2, -, h3, h4, -⟩ := C41_agree h.asset
  obtain ⟨s0, ss, o0, os, hf⟩ := fromWitness_ok.1 h.pub_eq
  have hm := hf.memo
  obtain ⟨-, k2, k3, k4⟩ := newUnchecked_ok.1 h.witness
  rw [secrets_ro k4, k2, k3, ← h.memo] at hm
  exact ⟨w, ad, h.witness, h2 _ _ h.witness, h1, hm, h3, h4⟩

end Cap

namespace Cap.Examples

open Toy Spec

/-- the check accepts the toy transfer, and the definition is the viewed one -/
example : transferCheckAssetDef (xfrInputs.map (·.ro)) xfrOutputs = .ok () ∧
    getAssetDefInTransferTxn (xfrInputs.map (·.ro)) = .ok asset ∧ witnessAssetDef xfrInputs = asset := by
  decide +kernel

example : TransferNote.generate .release rng xfrInputs xfrOutputs xfrPk 900 [1, 2, 3] = .ok (xfrNote, xfrSk) := xfrNote_eq

/-- an asset other than `asset`, for the example below -/
def otherAsset : AssetDefinition := { asset with code := 77 }

/-- two assets in one transfer -/
def mixedInputs : List TransferNoteInput :=
  xfrInputs ++ [{ (xfrInputs.getLast (by decide)) with ro := { assetRec with asset_def := otherAsset } }]

/-- without the check the memo builder and the witness disagree; the check refuses these inputs -/
example : getAssetDefInTransferTxn (mixedInputs.map (·.ro)) = .ok asset ∧ witnessAssetDef mixedInputs = otherAsset ∧
    asset ≠ otherAsset ∧ transferCheckAssetDef (mixedInputs.map (·.ro)) xfrOutputs = .error .invalidParameter := by
  decide +kernel

end Cap.Examples
