/-
Specification vocabulary for a wallet that follows the reference ledger: what happens to both, which records the wallet is
told about, and where they are in the tree.
-/
import Verif.Model.Wallet
import Verif.SpecAnyone

namespace Cap.Spec

open Cap

variable [E : CapEnv]

/-- the wallet has this record, at this position, among its unspent records -/
def _root_.Cap.Wallet.Holds (w : Wallet) (x : RecordOpening × U64) : Prop := ∃ e ∈ w.unspent, x ∈ e.2

/-- The same maps and sets, iterated in another order. -/
structure SameContents (w w' : Wallet) : Prop where
  keypair : w'.keypair = w.keypair
  credential : w'.credential = w.credential
  pending : w.pending.Perm w'.pending
  changes : w.changes.Perm w'.changes
  unspent : ∃ l, List.Forall₂ (fun e e' : AssetCode × List (RecordOpening × U64) => e.1 = e'.1 ∧ e.2.Perm e'.2) w.unspent l ∧
    l.Perm w'.unspent

variable [S : CapExt]

/-- What happens to the ledger and to one wallet that follows it. -/
inductive Seen
  /-- a record is granted on the ledger -/
  | grant (ro : RecordOpening)
  /-- a block is validated, inserted, and scanned with the memos that somebody published for its transactions -/
  | block (txns : List (TransactionNote × List E.AeadCt)) (fee_blind : F) (proposer : UserPubKey) (timestamp : U64)
  /-- the wallet is handed a record of the ledger (`add_record_opening`): a grant, or a collected fee -/
  | told (ro : RecordOpening) (uid : U64)
  /-- the wallet marks a record as being spent -/
  | spending (x : RecordOpening × U64)
  /-- the wallet waits for a change record -/
  | expecting (chg : RecordOpening)

/-- the number of outputs of some transactions -/
def outputs (txns : List (TransactionNote × List E.AeadCt)) : ℕ := (txns.map (fun t => t.1.outputCommitments.length)).sum

/-- the number of records an event adds to the tree -/
def Seen.size : Seen → ℕ
  | .grant _ => 1
  | .block txns _ _ _ => outputs txns + 1
  | _ => 0

/-- the number of records of a history -/
def records (h : List Seen) : ℕ := (h.map Seen.size).sum

/-- The ledger and a wallet with key pair `k` after a history.  Anybody may submit notes, and anybody may publish memos. -/
inductive World (d : Fin 256) (b : Build) (k : UserKeyPair) : List Seen → LedgerState → Wallet → Prop
  | start : World d b k [] (LedgerState.new d.val) (Wallet.new k)
  | grant {h s w ro s'} (before : World d b k h s w) (ok : s.grant d.val ro = .ok s') :
      World d b k (h ++ [.grant ro]) s' w
  | block {h s w txns blind who time s' w' recv uid} (before : World d b k h s w)
      (valid : validateTxnsBatch d s (txns.map (·.1)) time = .ok ())
      (inserted : s.insertBlock d.val ⟨txns.map (·.1), blind, who⟩ = .ok s')
      (offset : uid.val = s.leaves.length)
      (scanned : w.scanBlock b (txns.map (·.1)) (txns.map (·.2)) uid = .ok (w', recv)) :
      World d b k (h ++ [.block txns blind who time]) s' w'
  | told {h s w ro uid} (before : World d b k h s w) (mine : ro.pub_key = k.pubKey) (unfrozen : ro.freeze_flag = .unfrozen)
      (there : s.leaves[uid.val]? = some ro.commitment) (unspent : w.nullify (ro, uid) ∉ s.nullifiers) :
      World d b k (h ++ [.told ro uid]) s (w.addRecordOpening ro uid)
  | spending {h s w x} (before : World d b k h s w) (holds : w.Holds x) :
      World d b k (h ++ [.spending x]) s (w.markUnconfirmedSpent (w.nullify x) x.1 x.2)
  | expecting {h s w chg} (before : World d b k h s w) (mine : chg.pub_key = k.pubKey)
      (unfrozen : chg.freeze_flag = .unfrozen) :
      World d b k (h ++ [.expecting chg]) s { w with changes := setInsert chg w.changes }
  | credential {h s w} (before : World d b k h s w) (c : ExpirableCredential) : World d b k h s (w.setCredential c)
  | reorder {h s w w'} (before : World d b k h s w) (same : SameContents w w') : World d b k h s w'

/-- The transaction `t`, with the memos `memos`, is in a block of the history, and its first output is at the position
`pos` of the tree. -/
def At (h : List Seen) (t : TransactionNote) (memos : List E.AeadCt) (pos : ℕ) : Prop :=
  ∃ before txns blind who time after earlier later, h = before ++ .block txns blind who time :: after ∧
    txns = earlier ++ (t, memos) :: later ∧ pos = records before + outputs earlier

/-- The ways in which the owner of the key pair `k` gets to know a record of theirs, and its position. -/
inductive Received (k : UserKeyPair) (h : List Seen) : RecordOpening × U64 → Prop
  /-- they are handed the record -/
  | told {ro uid} (mem : .told ro uid ∈ h) : Received k h (ro, uid)
  /-- a memo for the output number `j + 1` of a transaction can be opened by them -/
  | memo {t memos pos j rc c ro uid} (at_ : At h t memos pos) (output : t.outputCommitments[j + 1]? = some rc)
      (memo : memos[j]? = some c) (opens : ReceiverMemo.decrypt c k rc [] = .ok ro)
      (position : uid.val = pos + 1 + j) : Received k h (ro, uid)
  /-- their change is the first output of a transaction -/
  | change {t memos pos chg uid} (waiting : .expecting chg ∈ h) (at_ : At h t memos pos)
      (output : t.outputCommitments[0]? = some chg.commitment) (position : uid.val = pos) : Received k h (chg, uid)

omit S in
/-- the nullifier of a record of `k` at a position -/
def ownNullifier (k : UserKeyPair) (x : RecordOpening × U64) : F :=
  k.nullify x.1.asset_def.policy.freezer_pk x.2 x.1.commitment

/-- No collisions among the nullifiers of the records this wallet gets to know; and none of these nullifiers was published
before the record existed. -/
structure Apart (k : UserKeyPair) (h : List Seen) : Prop where
  among : ∀ x y, Received k h x → Received k h y → ownNullifier k x = ownNullifier k y → x = y
  past : ∀ x, Received k h x → ∀ t memos pos, At h t memos pos → pos + t.outputCommitments.length ≤ x.2.val →
    ownNullifier k x ∉ t.nullifiers

/-- what the ledger sees of a history -/
def ledgerEvents : List Seen → List Event
  | [] => []
  | .grant ro :: h => .grant ro :: ledgerEvents h
  | .block txns blind who time :: h => .block (txns.map (fun t => ⟨t.1, [], []⟩)) blind who time :: ledgerEvents h
  | _ :: h => ledgerEvents h

/-- The nullifiers and commitments of the records this wallet gets to know collide neither among themselves nor with those
of the spends `spends`.  A hypothesis about the values of this history only. -/
structure Unmixed (k : UserKeyPair) (h : List Seen) (spends : List Spend) : Prop where
  prf : ∀ x y, Received k h x → Received k h y → ownNullifier k x = ownNullifier k y →
    (x.2, x.1.commitment) = (y.2, y.1.commitment)
  commit : ∀ x y, Received k h x → Received k h y → x.1.commitment = y.1.commitment →
    (x.1.scalars, x.1.blind) = (y.1.scalars, y.1.blind)
  spent_prf : ∀ x, Received k h x → ∀ y ∈ spends, y.nullifier = ownNullifier k x →
    (y.acc.uid, y.ro.commitment) = ((x.2.val : F), x.1.commitment)
  spent_commit : ∀ x, Received k h x → ∀ y ∈ spends, y.ro.commitment = x.1.commitment →
    (y.ro.scalars, y.ro.blind) = (x.1.scalars, x.1.blind)

end Cap.Spec
