/-
The rest of the reference validator of `tests/examples.rs`: single transfer notes, proposing a block, checking a proposed
block, and the insertion of a block as it happens in place.
-/
import Verif.Model.Ledger

namespace Cap

variable [E : CapEnv] [S : CapExt]

/-! ### Single notes and proposed blocks -/

/-- `tests/examples.rs:274-308` `validate_single_xfr_note` -/
def validateSingleXfrNote (d : Fin 256) (s : LedgerState) (n : TransferNote) (timestamp : U64) : Res Unit := do
  let k ← unwrapRes (transferPreprocess n.inputs_nullifiers.length n.output_commitments.length d)
  let _ ← checkTxnInputNullifiers s n.inputs_nullifiers []
  ensure (n.aux_info.merkle_root ∈ s.roots) .invalidParameter
  n.verify k.2 n.aux_info.merkle_root timestamp

/-- `tests/examples.rs:313-345` `collect_fee_and_build_block`.  `ser` is the derived `CanonicalSerialize` of `MockBlock`
(arkworks); `blind` is the blinding factor drawn by `RecordOpening::new`. -/
def collectFeeAndBuildBlock (ser : MockBlock → List Byte) (wallet : UserKeyPair) (blind : F)
    (txns : List TransactionNote) : Res (RecordOpening × MockBlock × E.Sig) := do
  let total_fee ← calculateFee txns
  let record_opening : RecordOpening :=
    { amount := total_fee, asset_def := AssetDefinition.native, pub_key := wallet.pubKey, freeze_flag := .unfrozen, blind }
  let block : MockBlock := { txns, proposer_pub_key := wallet.pubKey, fee_blind := record_opening.blind }
  .ok (record_opening, block, wallet.sign (ser block))

/-- `tests/examples.rs:349-372` `validate_block` -/
def validateBlock (ser : MockBlock → List Byte) (d : Fin 256) (s : LedgerState) (block : MockBlock) (sig : E.Sig)
    (timestamp : U64) (proposer_pub_key : UserPubKey) : Res Unit := do
  ensure (block.proposer_pub_key = proposer_pub_key) .invalidParameter
  proposer_pub_key.verifySig (ser block) sig
  validateTxnsBatch d s block.txns timestamp

/-! ### Insertion in place

`insert_block` changes the ledger as it goes along.  An update returns the ledger it leaves behind also when it fails. -/

/-- a method with a `&mut self` ledger -/
abbrev Update [E : CapEnv] := LedgerState → LedgerState × Res Unit

omit S in
/-- one statement after the other; after an error or a panic nothing else runs -/
def Update.andThen (f g : Update) : Update := fun s =>
  match f s with
  | (s, .ok ()) => g s
  | (s, .error e) => (s, .error e)

omit S in
/-- `tests/examples.rs:110-112` `insert_record` -/
def pushRecord (d : ℕ) (rc : F) : Update := fun s =>
  if s.leaves.length < 3 ^ d ∧ s.leaves.length + 1 < 2 ^ 64 then ({ s with leaves := s.leaves ++ [rc] }, .ok ())
  else (s, .error .panic)

omit S in
/-- `for_each(|e| self.insert_record(e))` -/
def pushRecords (d : ℕ) : List F → Update
  | [] => fun s => (s, .ok ())
  | rc :: rcs => (pushRecord d rc).andThen (pushRecords d rcs)

/-- `tests/examples.rs:138-190`, with `store_new_mt_root = false` -/
def pushNote (d : ℕ) : TransactionNote → Update
  | .transfer n => (pushRecords d n.output_commitments).andThen
      (fun s => (s.insertNullifiers n.inputs_nullifiers, .ok ()))
  | .mint n => ((pushRecord d n.chg_comm).andThen (pushRecord d n.mint_comm)).andThen
      (fun s => (s.insertNullifiers [n.input_nullifier], .ok ()))
  | .freeze n => (pushRecords d n.output_commitments).andThen
      (fun s => (s.insertNullifiers n.input_nullifiers, .ok ()))

/-- the loop of `insert_block` -/
def pushNotes (d : ℕ) : List TransactionNote → Update
  | [] => fun s => (s, .ok ())
  | t :: ts => (pushNote d t).andThen (pushNotes d ts)

/-- `tests/examples.rs:191-208` `insert_block`, with what it leaves behind when it fails -/
def insertBlockInPlace (d : ℕ) (b : MockBlock) : Update :=
  (pushNotes d b.txns).andThen (fun s =>
    match b.feeRecordCommitment with
    | .error e => (s, .error e)
    | .ok rc => (pushRecord d rc).andThen (fun s => (s.storeRoot d, .ok ())) s)

end Cap
