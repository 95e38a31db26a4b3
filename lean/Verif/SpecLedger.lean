/-
Specification vocabulary for histories of the reference ledger: what was created, what was spent, what is unspent, which
amounts came into being, and which hash evaluations a history makes.
-/
import Verif.Model.Ledger
import Verif.Spec

namespace Cap.Spec

open Cap

variable [E : CapEnv] [S : CapExt]

/-! ### Histories -/

/-- A transaction with what its author knows about it: the records it spends, with the membership witnesses, and the
records it creates, in the order of the output commitments. -/
structure Txn where
  note : TransactionNote
  spends : List (RecordOpening × AccMemberWitness)
  creates : List RecordOpening

/-- The note was made by the library from these records, with a proving key for trees of depth `d`; the membership
witnesses of a freeze note come from a tree of depth `d` (`generate` checks this itself for transfers and mints). -/
inductive Made (d : Fin 256) : Txn → Prop
  | transfer {a c : ℕ} {pk vk} {b rng} {inputs : List TransferNoteInput} {outputs valid_until extra n sk}
      (keys : transferPreprocess a c d = .ok (pk, vk))
      (gen : TransferNote.generate b rng inputs outputs pk valid_until extra = .ok (n, sk)) :
      Made d ⟨.transfer n, inputs.map (fun i => (i.ro, i.acc)), outputs⟩
  | mint {pk vk rng mint_ro ac_seed desc n sk} {fee : TxnFeeInfo}
      (keys : mintPreprocess d = .ok (pk, vk))
      (gen : MintNote.generate rng mint_ro ac_seed desc fee pk = .ok (n, sk)) :
      Made d ⟨.mint n, [(fee.fee_input.ro, fee.fee_input.acc)], [fee.fee_chg_ro, mint_ro]⟩
  | freeze {num : ℕ} {pk vk rng n sk outs} {inputs : List FreezeNoteInput} {fee : TxnFeeInfo}
      (keys : freezePreprocess num d = .ok (pk, vk))
      (gen : FreezeNote.generate rng inputs fee pk = .ok (n, sk, outs))
      (fee_path : fee.fee_input.acc.path.length = d.val)
      (paths : ∀ i ∈ inputs, i.acc.path.length = d.val) :
      Made d ⟨.freeze n, (fee.fee_input.ro, fee.fee_input.acc) :: inputs.map (fun i => (i.ro, i.acc)),
        fee.fee_chg_ro :: outs⟩

/-- What happens to the ledger: a record is granted (the ledger's mock minting), or a block of transactions is
validated at some time and inserted. -/
inductive Event
  | grant (ro : RecordOpening)
  | block (txns : List Txn) (fee_blind : F) (proposer : UserPubKey) (timestamp : U64)

/-- the ledger after one event -/
def Event.apply (d : Fin 256) (s : LedgerState) : Event → Res LedgerState
  | .grant ro => s.grant d.val ro
  | .block txns blind proposer timestamp => do
    validateTxnsBatch d s (txns.map (·.note)) timestamp
    s.insertBlock d.val ⟨txns.map (·.note), blind, proposer⟩

/-- the ledger after a list of events -/
def runFrom (d : Fin 256) : LedgerState → List Event → Res LedgerState
  | s, [] => .ok s
  | s, e :: es => do
    let s ← e.apply d s
    runFrom d s es

/-- the ledger after a history that starts with the new ledger -/
def run (d : Fin 256) (h : List Event) : Res LedgerState := runFrom d (LedgerState.new d.val) h

/-- the transactions of an event -/
def Event.txns : Event → List Txn
  | .grant _ => []
  | .block txns _ _ _ => txns

/-- every note of the history was made by the library -/
def Honest (d : Fin 256) (h : List Event) : Prop := ∀ e ∈ h, ∀ t ∈ e.txns, Made d t

omit S in
/-- there is room for `k` more records: the tree has `3^d` leaves, counted in a `u64` -/
def Room (d : ℕ) (s : LedgerState) (k : ℕ) : Prop := s.leaves.length + k ≤ 3 ^ d ∧ s.leaves.length + k < 2 ^ 64

/-! ### The books of a history -/

/-- the collected fee: the sum of the fees (`calculate_fee` refuses when it does not fit in 128 bits) -/
def collected (txns : List Txn) : Amount := Fin.ofNat (2 ^ 128) ((txns.map (fun t => t.note.fee.val)).sum)

/-- the records an event creates, in the order in which they enter the tree -/
def Event.creates : Event → List RecordOpening
  | .grant ro => [ro]
  | .block txns blind proposer _ => txns.flatMap (·.creates) ++ [feeRecord proposer (collected txns) blind]

/-- all records of a history, in the order of their positions in the tree -/
def created (h : List Event) : List RecordOpening := h.flatMap Event.creates

/-- The spends of a transaction.  Records with the dummy code are placeholders without value. -/
def Txn.realSpends (t : Txn) : List (RecordOpening × AccMemberWitness) :=
  t.spends.filter (fun x => x.1.asset_def.code ≠ dummyCode)

/-- all spends of a history -/
def spends (h : List Event) : List (RecordOpening × AccMemberWitness) :=
  h.flatMap (fun e => e.txns.flatMap Txn.realSpends)

/-- the positions a history has spent, with repetitions if there are any -/
def spentAt (h : List Event) : List ℕ := (spends h).map (fun x => x.2.uid.val)

/-- the records that are created and not spent -/
def unspent (h : List Event) : List RecordOpening :=
  ((created h).zipIdx.filter (fun x => x.2 ∉ spentAt h)).map (·.1)

/-- what the mint notes of a list of transactions publish as minted, of the asset `c` -/
def mintedBy (c : AssetCode) (txns : List Txn) : ℕ :=
  (txns.map (fun t => match t.note with
    | .mint n => if n.mint_asset_def.code = c then n.mint_amount.val else 0
    | _ => 0)).sum

/-- what an event brings into being of the asset `c`: the granted record, or the amounts of mint notes -/
def Event.issued (c : AssetCode) : Event → ℕ
  | .grant ro => if ro.asset_def.code = c then ro.amount.val else 0
  | .block txns _ _ _ => mintedBy c txns

/-- what a history brings into being of the asset `c` -/
def issued (c : AssetCode) (h : List Event) : ℕ := (h.map (Event.issued c)).sum

/-! ### The hash evaluations of a history -/

/-- The node hashes that make up the value of a node of the tree. -/
def nodeCalls (leaves : List F) : ℕ → ℕ → List (F × F × F)
  | 0, _ => []
  | l + 1, i =>
    if leaves.length ≤ i * 3 ^ (l + 1) then []
    else (treeNode leaves l (3 * i), treeNode leaves l (3 * i + 1), treeNode leaves l (3 * i + 2)) ::
      (nodeCalls leaves l (3 * i) ++ nodeCalls leaves l (3 * i + 1) ++ nodeCalls leaves l (3 * i + 2))

/-- the node hash of a step of a path -/
def stepCall (cur : F) (n : PathNode) : F × F × F :=
  match n.pos with
  | .left => (cur, n.sibling1, n.sibling2)
  | .middle => (n.sibling1, cur, n.sibling2)
  | .right => (n.sibling1, n.sibling2, cur)

/-- the node hashes of a path -/
def pathCalls : F → List PathNode → List (F × F × F)
  | _, [] => []
  | cur, n :: ns => stepCall cur n :: pathCalls (n.step cur) ns

/-- the leaf hashes of a tree -/
def leafCalls (leaves : List F) : List (F × F) := leaves.zipIdx.map (fun x => ((x.2 : F), x.1))

/-- The hash evaluations behind a list of created records and a list of spends have no collisions among them, and none of
the node and leaf hashes is zero (the value of an empty subtree).  A hypothesis about the values of this history only:
the hash functions themselves are not assumed to be injective. -/
structure NoCollision (d : Fin 256) (records : List RecordOpening)
    (spends : List (RecordOpening × AccMemberWitness)) : Prop where
  /-- the node hashes of all past and present trees, and of the paths -/
  node : ∀ x ∈ ((List.range (records.length + 1)).flatMap
        (fun k => nodeCalls ((records.map (·.commitment)).take k) d.val 0)),
      ∀ y ∈ spends.flatMap (fun s => pathCalls (E.leafHash (s.2.uid.val : F) s.1.commitment) s.2.path),
        E.nodeHash x.1 x.2.1 x.2.2 = E.nodeHash y.1 y.2.1 y.2.2 → x = y
  node_zero : ∀ y ∈ spends.flatMap (fun s => pathCalls (E.leafHash (s.2.uid.val : F) s.1.commitment) s.2.path),
    E.nodeHash y.1 y.2.1 y.2.2 ≠ 0
  leaf : ∀ x ∈ leafCalls (records.map (·.commitment)), ∀ s ∈ spends,
    E.leafHash x.1 x.2 = E.leafHash (s.2.uid.val : F) s.1.commitment → x = ((s.2.uid.val : F), s.1.commitment)
  leaf_zero : ∀ s ∈ spends, E.leafHash (s.2.uid.val : F) s.1.commitment ≠ 0
  /-- the record commitments -/
  commit : ∀ r ∈ records, ∀ s ∈ spends,
    r.commitment = s.1.commitment → (r.scalars, r.blind) = (s.1.scalars, s.1.blind)

end Cap.Spec
