/-
Specification: what a note built by the library's own builders must look like (C80).
-/
import Verif.Model.Builders
import Verif.SpecComplete

namespace Cap.Spec

variable [E : CapEnv]

/-- `acc` proves that the record is in the tree with this root -/
structure Proves (d : ℕ) (root : F) (ro : RecordOpening) (acc : AccMemberWitness) : Prop where
  depth : acc.path.length = d
  root_eq : acc.root = root
  member : merkleRoot (acc.uid.val : F) ro.commitment acc.path = root

variable [S : CapExt]

/-- A transfer note that spends the records of the builder `t` for its outputs, with a memo for each output, a signature
for the memos, and this fee, and that is accepted until the given time. -/
structure TransferBuilt (t : TransferBuilder) (fee : ℕ) (rng : TransferBuilder.Draw) (vk : TransferVerifyingKey)
    (until_ : U64) (n : TransferNote) (memos : List E.AeadCt) (sig : E.Sig) : Prop where
  pays : n.aux_info.fee.val = fee
  nullifiers : n.inputs_nullifiers = t.inputs.map nullifierOf
  outputs : n.output_commitments.tail = t.output_ros.map RecordOpening.commitment
  valid : ∀ now, now ≤ until_ → n.verify vk t.root now = .ok ()
  memos_len : memos.length = t.output_ros.length
  memos_of : ∀ (j : ℕ) o c, t.output_ros[j]? = some o → memos[j]? = some c → ReceiverMemo.fromRo (rng.memos j) o [] = .ok c
  signed : (TransactionNote.transfer n).verifyReceiverMemosSignature memos sig = .ok ()

/-- A mint note that creates the builder's record, and is accepted. -/
structure MintBuilt (m : MintBuilder) (vk : MintVerifyingKey) (root : F) (n : MintNote) (chg : RecordOpening) : Prop where
  pays : n.aux_info.fee = m.fee
  change : chg.amount.val + m.fee.val = m.fee_ro.amount.val
  chg_comm : n.chg_comm = chg.commitment
  minted : n.mint_comm = m.mint_ro.commitment
  amount : n.mint_amount = m.mint_ro.amount
  asset : n.mint_asset_def = m.mint_ro.asset_def
  valid : n.verify vk root = .ok ()

/-- A freezing note that freezes the builder's unfrozen records and releases the frozen ones, and is accepted. -/
structure FreezeBuilt (f : FreezeBuilder) (rng : FreezeRand) (vk : FreezeVerifyingKey) (root : F) (n : FreezeNote)
    (chg : RecordOpening) (outs : List RecordOpening) : Prop where
  pays : n.aux_info.fee = f.fee
  change : chg.amount.val + f.fee.val = f.fee_input.ro.amount.val
  outputs : n.output_commitments = (chg :: outs).map RecordOpening.commitment
  flipped : outs = f.inputs.mapIdx (fun k i => { i.ro with freeze_flag := i.ro.freeze_flag.flip, blind := rng.blinds k })
  valid : n.verify vk root = .ok ()

omit S in
/-- The receivers' keys can be encrypted for. -/
def CanReceive (l : List RecordOpening) : Prop := ∀ o ∈ l, ∀ r, ∃ c, ReceiverMemo.fromRo r o [] = .ok c

omit S in
/-- What the generator of random numbers may give for a transfer (`params_builder.rs:699-706`); and the drawn keys and codes
are not degenerate. -/
structure TransferInRange (x : TransferBuilder.Sample) : Prop where
  expiry : 1000 < x.cred_expiry.val ∧ x.cred_expiry.val < 2000
  fee : 1 ≤ x.fee.val ∧ x.fee.val < 20
  fee_change : 1 ≤ x.fee_change.val ∧ x.fee_change.val ≤ x.fee.val
  unit : 1 ≤ x.unit ∧ x.unit < 50
  attrs : ∀ i, (x.attrs i).length = 8
  viewer : x.viewer.pubKey ≠ 0
  code : newDomestic x.seed [] ≠ nativeCode ∧ newDomestic x.seed [] ≠ dummyCode

omit S in
/-- The same for a mint (`params_builder.rs:1138-1140`). -/
structure MintInRange (x : MintBuilder.Sample) : Prop where
  input_amount : 1 ≤ x.input_amount.val ∧ x.input_amount.val < 50
  fee : 1 ≤ x.fee.val ∧ x.fee.val ≤ x.input_amount.val
  mint_amount : 1 ≤ x.mint_amount.val ∧ x.mint_amount.val < 100
  code : newDomestic x.seed MintBuilder.description ≠ nativeCode ∧ newDomestic x.seed MintBuilder.description ≠ dummyCode

omit S in
/-- The same for freezing two records (`params_builder.rs:1240-1245`). -/
structure FreezeInRange (x : FreezeBuilder.Sample) : Prop where
  freezers : x.freezers.length = 2
  fee_input : 1 ≤ x.fee_input_amount.val ∧ x.fee_input_amount.val < 10
  fee : 1 ≤ x.fee.val ∧ x.fee.val ≤ x.fee_input_amount.val
  keys : ∀ s ∈ x.freezers, smulFr s E.gen ≠ 0
  owners : ∀ i, (x.inputs i).owner.pubKey.address ≠ 0

end Cap.Spec
