/-
Specification: what it takes to mint, to freeze and to pay with the native asset, in terms of the records and keys a
user passes in.  Used by the completeness properties C53 to C56.
-/
import Verif.Spec

namespace Cap.Spec

variable [E : CapEnv]

/-- A native record of the tree with root `root` that its owner may use to pay `fee`. -/
structure PaysFee (d : ℕ) (root : F) (fi : FeeInput) (fee : Amount) : Prop where
  depth : fi.acc.path.length = d
  native : fi.ro.asset_def = AssetDefinition.native
  unfrozen : fi.ro.freeze_flag = .unfrozen
  owned : fi.ro.pub_key = fi.owner_keypair.pubKey
  member : fi.acc.root = root ∧ merkleRoot (fi.acc.uid.val : F) fi.ro.commitment fi.acc.path = root
  covers : fee.val ≤ fi.ro.amount.val

/-- The record a creator of an asset wants to create: unfrozen, of the asset made from this seed and description. -/
structure Mintable (seed : F) (desc : List Byte) (ro : RecordOpening) : Prop where
  code : ro.asset_def.code = newDomestic seed desc
  unfrozen : ro.freeze_flag = .unfrozen

/-- A record that its freezer wants to freeze or release, or a dummy with the default key. -/
inductive FreezableBy (d : ℕ) (root : F) (i : FreezeNoteInput) : Prop
  | real (freezer : i.ro.asset_def.policy.freezer_pk ≠ 0)
      (key : i.ro.asset_def.policy.freezer_pk = smulFr i.keypair.sec_key E.gen)
      (depth : i.acc.path.length = d) (root_eq : i.acc.root = root)
      (member : merkleRoot (i.acc.uid.val : F) i.ro.commitment i.acc.path = root)
  | dummy (asset : i.ro.asset_def = AssetDefinition.dummy) (key : i.keypair.sec_key = 0)
      (depth : i.acc.path.length = d)

/-- the nullifier the freezer publishes for an input -/
def freezerNullifierOf (i : FreezeNoteInput) : F := i.keypair.nullify i.ro.pub_key.address i.acc.uid i.ro.commitment

/-- A freezing request: at least one record, each at most once, none with the record that pays the fee. -/
structure WellFormedFreeze (num d : ℕ) (root : F) (inputs : List FreezeNoteInput) (fi : FeeInput) (fee : Amount) :
    Prop where
  some_input : inputs ≠ []
  num_in : inputs.length + 1 = num
  pays : PaysFee d root fi fee
  inputs_ok : ∀ i ∈ inputs, FreezableBy d root i
  once : (nullifierOf fi.toTransferInput :: inputs.map freezerNullifierOf).Nodup

/-- A record its owner can spend: a record of the tree with root `root`, or a dummy without value. -/
structure Spendable (d : ℕ) (root : F) (i : TransferNoteInput) : Prop where
  depth : i.acc.path.length = d
  owned : i.ro.pub_key = i.owner_keypair.pubKey
  unfrozen : i.ro.freeze_flag = .unfrozen
  member : i.ro.asset_def ≠ AssetDefinition.dummy →
    i.acc.root = root ∧ merkleRoot (i.acc.uid.val : F) i.ro.commitment i.acc.path = root
  dummy : i.ro.asset_def = AssetDefinition.dummy → i.ro.amount = 0

/-- A payment in the native asset from `inputs` to `outputs` (which do not include the change). -/
structure NativePayment (ni no d : ℕ) (root : F) (inputs : List TransferNoteInput) (outputs : List RecordOpening)
    (fee : Amount) : Prop where
  num_in : inputs.length = ni
  num_out : outputs.length + 1 = no
  first : ∃ i0 is, inputs = i0 :: is ∧ i0.ro.asset_def = AssetDefinition.native
  native_in : ∀ i ∈ inputs, i.ro.asset_def = AssetDefinition.native ∨ i.ro.asset_def = AssetDefinition.dummy
  native_out : ∀ o ∈ outputs, o.asset_def = AssetDefinition.native ∧ o.freeze_flag = .unfrozen
  spendable : ∀ i ∈ inputs, Spendable d root i
  once : (inputs.map nullifierOf).Nodup
  covers : total outputs + fee.val ≤ total (inputs.map (·.ro))
  small : total (inputs.map (·.ro)) < 2 ^ 127

/-- A payment in another asset `ad` from `inputs` to `outputs`, with a fee paid by a native record. -/
structure AssetPayment (ni no d : ℕ) (root : F) (valid_until : U64) (ad : AssetDefinition)
    (inputs : List TransferNoteInput) (outputs : List RecordOpening) (fi : FeeInput) (fee : Amount) : Prop where
  num_in : inputs.length + 1 = ni
  num_out : outputs.length + 1 = no
  code : ad.code ≠ nativeCode ∧ ad.code ≠ dummyCode
  freezer_has_viewer : ad.policy.freezer_pk ≠ 0 → ad.policy.viewer_pk ≠ 0
  pays : PaysFee d root fi fee
  some_in : ∃ i ∈ inputs, i.ro.asset_def = ad
  asset_in : ∀ i ∈ inputs, i.ro.asset_def = ad ∨ i.ro.asset_def = AssetDefinition.dummy
  asset_out : ∀ o ∈ outputs, o.asset_def = ad ∧ o.freeze_flag = .unfrozen
  spendable : ∀ i ∈ inputs, Spendable d root i
  once : (nullifierOf fi.toTransferInput :: inputs.map nullifierOf).Nodup
  balanced : total (inputs.map (·.ro)) = total outputs
  small : fi.ro.amount.val + total (inputs.map (·.ro)) < 2 ^ 127
  creds : ad.policy.cred_pk ≠ 0 → ∀ i ∈ inputs, i.ro.asset_def = ad →
    ∃ c, i.cred = some c ∧ c.verify valid_until = .ok () ∧ c.attrs.length = 8

end Cap.Spec
