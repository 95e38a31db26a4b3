/-
The reference ledger of `tests/examples.rs`: the record Merkle tree, the set of nullifiers, the set of historical roots,
the validator and the insertion of blocks.

The Merkle tree is `jf_primitives::merkle_tree::MerkleTree`, an external crate; its behaviour is modelled here as the
library uses it (trusted base): a 3-ary tree of fixed depth, filled from the left, in which an empty subtree has the
value 0, a leaf is `leafHash uid element` and a node the `nodeHash` of its three children.
-/
import Verif.Model.Txn

namespace Cap

variable [E : CapEnv]

/-! ### The tree -/

/-- `MerkleTree` of jf-primitives: the value of the node with index `i` of level `l` (level 0 is the leaves). -/
def treeNode (leaves : List F) : ℕ → ℕ → F
  | 0, i =>
    match leaves[i]? with
    | some c => E.leafHash (i : F) c
    | none => 0
  | l + 1, i =>
    if leaves.length ≤ i * 3 ^ (l + 1) then 0
    else E.nodeHash (treeNode leaves l (3 * i)) (treeNode leaves l (3 * i + 1)) (treeNode leaves l (3 * i + 2))

/-- `MerkleTree::commitment().root_value` -/
def treeRoot (d : ℕ) (leaves : List F) : F := treeNode leaves d 0

/-- `MerkleTree::get_leaf`: the siblings on the way from the leaf `uid` to the root, from level `l` on -/
def treePathFrom (leaves : List F) : ℕ → ℕ → ℕ → List PathNode
  | 0, _, _ => []
  | k + 1, l, i =>
    let up := i / 3
    let node :=
      if i % 3 = 0 then (⟨treeNode leaves l (3 * up + 1), treeNode leaves l (3 * up + 2), .left⟩ : PathNode)
      else if i % 3 = 1 then ⟨treeNode leaves l (3 * up), treeNode leaves l (3 * up + 2), .middle⟩
      else ⟨treeNode leaves l (3 * up), treeNode leaves l (3 * up + 1), .right⟩
    node :: treePathFrom leaves k (l + 1) up

/-- the path a wallet takes from the tree for the leaf `uid` -/
def treePath (d : ℕ) (leaves : List F) (uid : ℕ) : List PathNode := treePathFrom leaves d 0 uid

/-! ### The ledger state (`tests/examples.rs:46-211`) -/

/-- `tests/examples.rs:46-53` `LedgerStateMock`.  The tree is represented by its leaves; hash sets are lists, looked
at through membership only. -/
structure LedgerState where
  leaves : List F
  nullifiers : List F
  roots : List F

namespace LedgerState

/-- `tests/examples.rs:120-122` `store_current_mt_root` -/
def storeRoot (d : ℕ) (s : LedgerState) : LedgerState := { s with roots := treeRoot d s.leaves :: s.roots }

/-- `tests/examples.rs:56-66` -/
def new (d : ℕ) : LedgerState := storeRoot d { leaves := [], nullifiers := [], roots := [] }

/-- `tests/examples.rs:110-112` `insert_record`.  The tree has `3^d` leaves, counted in a `u64`; pushing to a full tree
panics. -/
def insertRecord (d : ℕ) (s : LedgerState) (rc : F) : Res LedgerState :=
  if s.leaves.length < 3 ^ d ∧ s.leaves.length + 1 < 2 ^ 64 then .ok { s with leaves := s.leaves ++ [rc] }
  else .error .panic

/-- `for_each(|e| self.insert_record(e))` -/
def insertRecords (d : ℕ) : LedgerState → List F → Res LedgerState
  | s, [] => .ok s
  | s, rc :: rcs => do
    let s ← insertRecord d s rc
    insertRecords d s rcs

/-- `tests/examples.rs:115-117` `insert_nullifier`, for all nullifiers of a note -/
def insertNullifiers (s : LedgerState) (l : List F) : LedgerState := { s with nullifiers := l ++ s.nullifiers }

/-- `tests/examples.rs:68-107` `mock_mint_native_asset`, `mock_mint_non_native_asset`: the record appears in the
tree.  (The record is a parameter here.) -/
def grant (d : ℕ) (s : LedgerState) (ro : RecordOpening) : Res LedgerState := do
  let s ← insertRecord d s ro.commitment
  .ok (storeRoot d s)

variable [S : CapExt]

/-- `tests/examples.rs:138-190`: `insert_transfer_note`, `insert_mint_note`, `insert_freeze_note` with
`store_new_mt_root = false`: outputs, then nullifiers -/
def insertNote (d : ℕ) (s : LedgerState) : TransactionNote → Res LedgerState
  | .transfer n => do
    let s ← insertRecords d s n.output_commitments
    .ok (insertNullifiers s n.inputs_nullifiers)
  | .mint n => do
    let s ← insertRecord d s n.chg_comm
    let s ← insertRecord d s n.mint_comm
    .ok (insertNullifiers s [n.input_nullifier])
  | .freeze n => do
    let s ← insertRecords d s n.output_commitments
    .ok (insertNullifiers s n.input_nullifiers)

/-- the loop of `insert_block` -/
def insertNotes (d : ℕ) : LedgerState → List TransactionNote → Res LedgerState
  | s, [] => .ok s
  | s, t :: ts => do
    let s ← insertNote d s t
    insertNotes d s ts

end LedgerState

variable [S : CapExt]

/-- `tests/examples.rs:214-219` `MockBlock` -/
structure MockBlock where
  txns : List TransactionNote
  fee_blind : F
  proposer_pub_key : UserPubKey

/-- `tests/examples.rs:224-233` `derive_fee_record_commitment` -/
def MockBlock.feeRecordCommitment (b : MockBlock) : Res F := do
  let fee ← calculateFee b.txns
  .ok (feeRecord b.proposer_pub_key fee b.fee_blind).commitment

/-- `tests/examples.rs:191-208` `insert_block`.  On an error the partly changed ledger is dropped here (in Rust it
stays changed). -/
def LedgerState.insertBlock (d : ℕ) (s : LedgerState) (b : MockBlock) : Res LedgerState := do
  let s ← s.insertNotes d b.txns
  let rc ← b.feeRecordCommitment
  let s ← s.insertRecord d rc
  .ok (s.storeRoot d)

/-! ### The validator (`tests/examples.rs:374-495`) -/

/-- `.all(|nullifier| checked_nullifiers.insert(*nullifier))`: the set afterwards, or `none` at the first repetition -/
def insertAll : List F → List F → Option (List F)
  | checked, [] => some checked
  | checked, n :: ns => if n ∈ checked then none else insertAll (n :: checked) ns

/-- `tests/examples.rs:472-494` `check_txn_input_nullifiers`; the set of checked nullifiers is returned.  `anyhow` errors
are all `invalidParameter` here. -/
def checkTxnInputNullifiers (s : LedgerState) (nullifiers checked : List F) : Res (List F) :=
  if nullifiers.any (fun n => n ∈ s.nullifiers) then .error .invalidParameter
  else
    match insertAll checked nullifiers with
    | some checked => .ok checked
    | none => .error .invalidParameter

/-- `.unwrap()` -/
def unwrapRes {α : Type} : Res α → Res α
  | .ok a => .ok a
  | .error _ => .error .panic

/-- `tests/examples.rs:388-402`, `426-468`: the verifying key is chosen by the kind of the note and the lengths of its
lists.  (The cache of keys is left out: `preprocess` is deterministic here.) -/
def keyForNote (d : Fin 256) : TransactionNote → Res TransactionVerifyingKey
  | .transfer n => do
    let k ← unwrapRes (transferPreprocess n.inputs_nullifiers.length n.output_commitments.length d)
    .ok (.transfer k.2)
  | .mint _ => do
    let k ← unwrapRes (mintPreprocess d)
    .ok (.mint k.2)
  | .freeze n => do
    let k ← unwrapRes (freezePreprocess n.input_nullifiers.length d)
    .ok (.freeze k.2)

/-- the loop of `validate_txns_batch`: keys and roots -/
def validateLoop (d : Fin 256) (s : LedgerState) :
    List TransactionNote → List F → Res (List TransactionVerifyingKey × List F)
  | [], _ => .ok ([], [])
  | t :: ts, checked => do
    let k ← keyForNote d t
    let checked ← checkTxnInputNullifiers s t.nullifiers checked
    ensure (t.merkleRoot ∈ s.roots) .invalidParameter
    let r ← validateLoop d s ts checked
    .ok (k :: r.1, t.merkleRoot :: r.2)

/-- `tests/examples.rs:374-424` `validate_txns_batch` -/
def validateTxnsBatch (d : Fin 256) (s : LedgerState) (txns : List TransactionNote) (timestamp : U64) : Res Unit := do
  let r ← validateLoop d s txns []
  txnBatchVerify txns r.2 timestamp r.1

end Cap
