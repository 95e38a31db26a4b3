/-
Specification: what a note discloses (property C86).

Two requests are compared: the one a note was made from, and another one that tells a different story about amounts,
assets, policies, receivers and credentials.  The secrets of the comparison are the blinding factors of the records and
the randomness of the prover.
-/
import Verif.SpecComplete

namespace Cap.Spec

variable [E : CapEnv]

/-- Commitments hide perfectly: whatever is committed to, the blinding factors can be renamed so that the commitments are
those of another message.  (Idealised: of the Rescue commitment this is only conjectured, and computationally.) -/
def CommitHiding : Prop :=
  ∀ m m' : List F, m.length = m'.length → ∃ σ : F ≃ F, ∀ b, E.commit m' (σ b) = E.commit m b

/-- Proofs hide the witness perfectly: for two assignments with the same public inputs the randomness of the prover can
be renamed so that the proofs are the same.  (Idealised zero knowledge.) -/
def ZeroKnowledge [S : CapExt] : Prop :=
  ∀ (sh : Shape) (pk : S.Pk) (vk : S.Vk), S.preprocess sh = some (pk, vk) →
    ∀ inst inst' : CircuitInst, inst.HasShape sh → inst.Sat → inst'.HasShape sh → inst'.Sat → inst.pub = inst'.pub →
      ∀ ext, ∃ τ : ℕ ≃ ℕ, ∀ seed, S.prove pk inst' ext (τ seed) = S.prove pk inst ext seed

/-- `r` with another blinding factor -/
def reblind (r : RecordOpening) (b : F) : RecordOpening := { r with blind := b }

/-- `σ r r'` renames the blinding factors so that `r'` gets the commitment of `r`.  It does not look at the blinding
factors the two records come with, and renames nothing if both records are the same. -/
structure Masks (σ : RecordOpening → RecordOpening → F ≃ F) : Prop where
  same : ∀ r r' b, (reblind r' (σ r r' b)).commitment = (reblind r b).commitment
  blind : ∀ r r' b b', σ (reblind r b) (reblind r' b') = σ r r'
  self : ∀ r b, σ r r b = b

/-- the record `r'`, blinded so that it has the commitment of `r` -/
def disguise (σ : RecordOpening → RecordOpening → F ≃ F) (r r' : RecordOpening) : RecordOpening :=
  reblind r' (σ r r' r.blind)

/-! ### Transfers -/

/-- What a transfer tells its viewer: nothing without a viewer and up to the threshold, otherwise the revealed fields. -/
def disclosed (ad : AssetDefinition) (inputs : List TransferNoteInput) (outputs : List RecordOpening) :
    Option (Pt × List F) :=
  if ad.policy.viewer_pk ≠ 0 ∧ ad.policy.reveal_threshold.val < moved inputs then
    some (ad.policy.viewer_pk, plainMessage ad inputs outputs)
  else none

/-- The conditions of `WellFormed` that are not about the tree: a story about which records are spent and created. -/
structure TransferStory (ni no : ℕ) (valid_until : U64) (inputs : List TransferNoteInput) (outputs : List RecordOpening)
    (ad : AssetDefinition) (fee : Amount) : Prop where
  num_in : inputs.length = ni
  num_out : outputs.length = no
  fee_in : ∃ i0 is, inputs = i0 :: is ∧ i0.ro.asset_def = AssetDefinition.native
  fee_out : ∃ o0 os, outputs = o0 :: os ∧ o0.asset_def = AssetDefinition.native
  asset_in : ∀ i ∈ inputs.tail, i.ro.asset_def = AssetDefinition.dummy ∨ i.ro.asset_def = ad
  asset_out : ∀ o ∈ outputs.tail, o.asset_def = ad
  only_dummies : (∀ i ∈ inputs.tail, i.ro.asset_def = AssetDefinition.dummy) → ad = AssetDefinition.native
  code_dummy : ad.code ≠ dummyCode
  code_native : ad.code = nativeCode → ad = AssetDefinition.native
  freezer_has_viewer : ad.policy.freezer_pk ≠ 0 → ad.policy.viewer_pk ≠ 0
  owned : ∀ i ∈ inputs, i.ro.pub_key = i.owner_keypair.pubKey
  unfrozen_in : ∀ i ∈ inputs, i.ro.freeze_flag = .unfrozen
  unfrozen_out : ∀ o ∈ outputs, o.freeze_flag = .unfrozen
  dummies : ∀ i ∈ inputs, i.ro.asset_def = AssetDefinition.dummy → i.ro.amount = 0
  balanced : Balanced (inputs.map (·.ro)) outputs fee
  small : total (real (inputs.map (·.ro))) < 2 ^ 127
  creds : ∀ i ∈ inputs, i.ro.asset_def.policy.cred_pk ≠ 0 → ∃ c, i.cred = some c ∧ c.verify valid_until = .ok () ∧
    c.attrs.length = 8

/-- In the other story the record is spent with the same nullifier key, and it is no real record where the first story
has a dummy.  (The same owner and freezer have the same nullifier key.) -/
structure SameSpender (i i' : TransferNoteInput) : Prop where
  key : i'.owner_keypair.deriveNullifierKey i'.ro.asset_def.policy.freezer_pk =
    i.owner_keypair.deriveNullifierKey i.ro.asset_def.policy.freezer_pk
  real : i'.ro.asset_def ≠ AssetDefinition.dummy → i.ro.asset_def ≠ AssetDefinition.dummy

/-- the other story, told about the record of the tree that is really spent -/
def retell (σ : RecordOpening → RecordOpening → F ≃ F) (i i' : TransferNoteInput) : TransferNoteInput :=
  { i' with ro := disguise σ i.ro i'.ro, acc := i.acc }

/-! ### Mints and freezes -/

/-- The conditions of `PaysFee` that are not about the tree. -/
structure FeeStory (fi : FeeInput) (fee : Amount) : Prop where
  native : fi.ro.asset_def = AssetDefinition.native
  unfrozen : fi.ro.freeze_flag = .unfrozen
  owned : fi.ro.pub_key = fi.owner_keypair.pubKey
  covers : fee.val ≤ fi.ro.amount.val

/-- another fee record, told about the record of the tree that is really spent -/
def retellFee (σ : RecordOpening → RecordOpening → F ≃ F) (fi fi' : FeeInput) : FeeInput :=
  { fi' with ro := disguise σ fi.ro fi'.ro, acc := fi.acc }

/-- The conditions of `FreezableBy` that are not about the tree: a record that its freezer wants to freeze or release, or
a dummy with the default key. -/
def FreezeStory (i : FreezeNoteInput) : Prop :=
  (i.ro.asset_def.policy.freezer_pk ≠ 0 ∧ i.ro.asset_def.policy.freezer_pk = smulFr i.keypair.sec_key E.gen) ∨
  (i.ro.asset_def = AssetDefinition.dummy ∧ i.keypair.sec_key = 0)

/-- The same nullifier key, and no real record where the first story has a dummy.  (The same freezer and the same owner's
address have the same nullifier key.) -/
structure SameFreezer (i i' : FreezeNoteInput) : Prop where
  key : i'.keypair.deriveNullifierKey i'.ro.pub_key.address = i.keypair.deriveNullifierKey i.ro.pub_key.address
  real : i'.ro.asset_def ≠ AssetDefinition.dummy → i.ro.asset_def ≠ AssetDefinition.dummy

/-- the other story, told about the record of the tree that is really frozen or released -/
def retellFreeze (σ : RecordOpening → RecordOpening → F ≃ F) (i i' : FreezeNoteInput) : FreezeNoteInput :=
  { i' with ro := disguise σ i.ro i'.ro, acc := i.acc }

/-- the same record with the other flag -/
def unlike (i : FreezeNoteInput) : FreezeNoteInput := { i with ro := { i.ro with freeze_flag := i.ro.freeze_flag.flip } }

end Cap.Spec
