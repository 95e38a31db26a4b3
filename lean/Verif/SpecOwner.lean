/-
Specification vocabulary for owners on a ledger that is open to everybody: what can be seen of a coin in the ledger, and
which hash evaluations stand between an unspent record and a fresh nullifier.
-/
import Verif.SpecWallet
import Verif.SpecHolder

namespace Cap.Spec

open Cap

variable [E : CapEnv] [S : CapExt]

omit S in
/-- the nullifier the owner of a coin publishes when spending it -/
def Coin.nullifier (c : Coin) : F := c.key.nullify c.ro.asset_def.policy.freezer_pk c.uid c.ro.commitment

omit S in
/-- the nullifier the freezer of a record publishes -/
def Freezable.nullifier (r : Freezable) : F := r.key.nullify r.ro.pub_key.address r.uid r.ro.commitment

omit S in
/-- What a wallet sees of a coin it can spend: the commitment is in the tree, the record is unfrozen and belongs to this
key, and its nullifier has not been published. -/
structure Ready (s : LedgerState) (c : Coin) : Prop where
  there : s.leaves[c.uid.val]? = some c.ro.commitment
  owned : c.ro.pub_key = c.key.pubKey
  unfrozen : c.ro.freeze_flag = .unfrozen
  fresh : c.nullifier ∉ s.nullifiers

omit S in
/-- What a freezer sees of a record it can freeze or release. -/
structure ReadyToFreeze (s : LedgerState) (r : Freezable) : Prop where
  there : s.leaves[r.uid.val]? = some r.ro.commitment
  named : r.ro.asset_def.policy.freezer_pk ≠ 0
  freezer : r.ro.asset_def.policy.freezer_pk = smulFr r.key.sec_key E.gen
  fresh : r.nullifier ∉ s.nullifiers

/-- The hash evaluations behind the nullifiers `new` do not collide with those behind the spends of a history, nor with
each other.  All inputs are named. -/
structure NoClashV (h : List Step) (new : List Nullifying) : Prop where
  prf : ∀ y ∈ openedSpends h, ∀ x ∈ new,
    ¬ Collides prfOf (x.nk, [(x.uid.val : F), x.ro.commitment]) (spendKey y.2, [y.2.acc.uid, y.2.ro.commitment])
  commit : ∀ y ∈ openedSpends h, ∀ x ∈ new,
    ¬ Collides commitOf (x.ro.scalars, x.ro.blind) (y.2.ro.scalars, y.2.ro.blind)
  among : ∀ x ∈ new, ∀ y ∈ new,
    ¬ Collides prfOf (x.nk, [(x.uid.val : F), x.ro.commitment]) (y.nk, [(y.uid.val : F), y.ro.commitment])

end Cap.Spec
