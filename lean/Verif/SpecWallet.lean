/-
Specification: what a user holds on the reference ledger, and which hash evaluations stand between an unspent record and
a fresh nullifier.
-/
import Verif.SpecLedger
import Verif.SpecComplete

namespace Cap.Spec

open Cap

variable [E : CapEnv] [S : CapExt]

omit S in
/-- `AccMemberWitness::lookup_from_tree` (jf-primitives), with the tree of the ledger -/
def lookup (d : ℕ) (s : LedgerState) (uid : U64) : AccMemberWitness :=
  ⟨treePath d s.leaves uid.val, treeRoot d s.leaves, uid⟩

/-- A record with its position in the tree, the key pair of its owner, and the owner's credential, if any. -/
structure Coin where
  ro : RecordOpening
  uid : U64
  key : UserKeyPair
  cred : Option ExpirableCredential := none

omit S in
/-- the input of a transfer, as a wallet makes it -/
def Coin.input (d : ℕ) (s : LedgerState) (c : Coin) : TransferNoteInput := ⟨c.ro, lookup d s c.uid, c.key, c.cred⟩

omit S in
/-- the input that pays a fee -/
def Coin.feeInput (d : ℕ) (s : LedgerState) (c : Coin) : FeeInput := ⟨c.ro, lookup d s c.uid, c.key⟩

/-- After the history `h` the record `ro` is at the position `uid`, and has not been spent or frozen away. -/
structure OnLedger (h : List Event) (ro : RecordOpening) (uid : U64) : Prop where
  there : (created h)[uid.val]? = some ro
  unspent : uid.val ∉ spentAt h

/-- ... and it is unfrozen and belongs to this key. -/
structure Held (h : List Event) (c : Coin) : Prop where
  on : OnLedger h c.ro c.uid
  owned : c.ro.pub_key = c.key.pubKey
  unfrozen : c.ro.freeze_flag = .unfrozen

omit S in
/-- The nullifier keys of a record: the one its owner derives, and the one its freezer derives. -/
inductive NullifierKeyOf (ro : RecordOpening) : F → Prop
  | owner (k : UserKeyPair) (own : ro.pub_key.address = k.address) :
      NullifierKeyOf ro (k.deriveNullifierKey ro.asset_def.policy.freezer_pk)
  | freezer (k : FreezerKeyPair) (own : ro.asset_def.policy.freezer_pk = smulFr k.sec_key E.gen) :
      NullifierKeyOf ro (k.deriveNullifierKey ro.pub_key.address)

/-- all spends of a history, those of dummies included -/
def allSpends (h : List Event) : List (RecordOpening × AccMemberWitness) :=
  h.flatMap (fun e => e.txns.flatMap Txn.spends)

omit S in
/-- The evaluations of the PRF for these records at these positions. -/
structure Nullifying where
  ro : RecordOpening
  uid : U64
  nk : F

omit S in
def Nullifying.value (x : Nullifying) : F := nullifyWithKey x.nk x.uid x.ro.commitment

omit S in
/-- the PRF is evaluated at this point -/
def Nullifying.point (x : Nullifying) : F × F := ((x.uid.val : F), x.ro.commitment)

/-- The nullifiers `new` have no collisions with those of a history, or among each other: neither the PRF nor the record
commitment takes the same value at different points.  A hypothesis about the values of this history only. -/
structure NoClash (h : List Event) (new : List Nullifying) : Prop where
  prf : ∀ x ∈ allSpends h, ∀ y ∈ new, ∀ nk, NullifierKeyOf x.1 nk →
    nullifyWithKey nk x.2.uid x.1.commitment = y.value → ((x.2.uid.val : F), x.1.commitment) = y.point
  commit : ∀ x ∈ allSpends h, ∀ y ∈ new,
    x.1.commitment = y.ro.commitment → (x.1.scalars, x.1.blind) = (y.ro.scalars, y.ro.blind)
  among : ∀ x ∈ new, ∀ y ∈ new, x.value = y.value → x.point = y.point

omit S in
/-- the nullifier of a coin -/
def Coin.nullifying (c : Coin) : Nullifying := ⟨c.ro, c.uid, c.key.deriveNullifierKey c.ro.asset_def.policy.freezer_pk⟩

/-- A record with its position in the tree and the key pair of its freezer. -/
structure Freezable where
  ro : RecordOpening
  uid : U64
  key : FreezerKeyPair

omit S in
/-- the input of a freeze -/
def Freezable.input (d : ℕ) (s : LedgerState) (c : Freezable) : FreezeNoteInput := ⟨c.ro, lookup d s c.uid, c.key⟩

omit S in
/-- the nullifier the freezer makes -/
def Freezable.nullifying (c : Freezable) : Nullifying := ⟨c.ro, c.uid, c.key.deriveNullifierKey c.ro.pub_key.address⟩

end Cap.Spec
