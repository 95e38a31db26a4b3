/-
The note structures of `/repo/src/transfer.rs`, `/repo/src/mint.rs`, `/repo/src/freeze.rs`, and the inputs
they are generated from.
-/
import Verif.Model.Ext

namespace Cap

variable [E : CapEnv]

/-- jf-primitives `AccMemberWitness`: Merkle path, root, leaf index -/
structure AccMemberWitness where
  path : List PathNode
  root : F
  uid : U64

/-- jf-primitives `MerkleTree::check_proof` for the leaf `elem` -/
def merkleCheck (a : AccMemberWitness) (elem : F) : Bool := merkleRoot (a.uid.val : F) elem a.path = a.root

/-- `transfer.rs:97-108` -/
structure TransferNoteInput where
  ro : RecordOpening
  acc : AccMemberWitness
  owner_keypair : UserKeyPair
  cred : Option ExpirableCredential

/-- `structs.rs:1660-1668` -/
structure FeeInput where
  ro : RecordOpening
  acc : AccMemberWitness
  owner_keypair : UserKeyPair

/-- `structs.rs:1681-1688` -/
structure TxnFeeInfo where
  fee_input : FeeInput
  fee_amount : Amount
  fee_chg_ro : RecordOpening

/-- `freeze.rs:74-82` -/
structure FreezeNoteInput where
  ro : RecordOpening
  acc : AccMemberWitness
  keypair : FreezerKeyPair

/-- `transfer.rs:121-130` -/
def FeeInput.toTransferInput (f : FeeInput) : TransferNoteInput := ⟨f.ro, f.acc, f.owner_keypair, none⟩

variable [S : CapExt]

/-- `transfer.rs:78-91` -/
structure TransferAux where
  merkle_root : F
  fee : Amount
  valid_until : U64
  txn_memo_ver_key : Pt
  extra_proof_bound_data : List Byte
deriving DecidableEq

/-- `transfer.rs:54-66` -/
structure TransferNote where
  inputs_nullifiers : List F
  output_commitments : List F
  proof : S.Proof
  viewing_memo : ViewableMemo
  aux_info : TransferAux
deriving DecidableEq

/-- `mint.rs:71-79`, `freeze.rs:61-69` -/
structure NoteAux where
  merkle_root : F
  fee : Amount
  txn_memo_ver_key : Pt
deriving DecidableEq

/-- `mint.rs:41-60` -/
structure MintNote where
  input_nullifier : F
  chg_comm : F
  mint_comm : F
  mint_amount : Amount
  mint_asset_def : AssetDefinition
  mint_internal_asset_code : F
  proof : S.Proof
  viewing_memo : ViewableMemo
  aux_info : NoteAux
deriving DecidableEq

/-- `freeze.rs:41-50` -/
structure FreezeNote where
  input_nullifiers : List F
  output_commitments : List F
  proof : S.Proof
  aux_info : NoteAux
deriving DecidableEq

end Cap
