/-
Specification vocabulary for holders: by whom a record is taken off the ledger, and what an address holds.
-/
import Verif.SpecAnyone

namespace Cap.Spec

open Cap

variable [E : CapEnv] [S : CapExt]

/-- Who takes the record `ro` with the spend `x` of the transaction `o`. -/
inductive TakenBy (o : Opening) (x : Spend) (ro : RecordOpening) : Prop
  /-- somebody who holds a secret key of its address; the record is not frozen -/
  | owner (who : x.who = .user) (unfrozen : ro.freeze_flag = .unfrozen)
      (key : x.sk.val • E.gen = ro.pub_key.address)
  /-- somebody who holds a secret key of the freezer its policy names; the transaction is a freeze, and creates a record of
  the same owner, asset and amount -/
  | freezer (n : FreezeNote) (kind : o.note = .freeze n) (who : x.who = .freezer)
      (named : ro.asset_def.policy.freezer_pk ≠ 0) (key : x.sk.val • E.gen = ro.asset_def.policy.freezer_pk)
      (out : RecordV) (created : out ∈ o.creates) (owner : out.owner_addr = E.xy ro.pub_key.address)
      (asset : out.asset_code = ro.asset_def.code) (amount : out.amount = Amount.toF ro.amount)

/-- In this step a record is spent with a secret key of the public key `P`, held in the given role. -/
def Step.Uses (who : Spender) (P : Pt) (e : Step) : Prop :=
  ∃ o ∈ e.txns, ∃ x ∈ o.realSpends, x.who = who ∧ x.sk.val • E.gen = P

omit S in
/-- the amount of a record, if it belongs to the address `A` and its asset is `c` -/
def amountFor (A : Pt) (c : AssetCode) (r : RecordV) : ℕ :=
  if r.owner_addr = E.xy A ∧ r.asset_code = c then r.amount.val else 0

/-- what the address `A` holds of the asset `c`: its unspent records, frozen ones included -/
def heldBy (A : Pt) (c : AssetCode) (h : List Step) : ℕ := ((neverSpent h).map (amountFor A c)).sum

/-- all spends of a history, placeholders included -/
def openedSpends (h : List Step) : List (Opening × Spend) :=
  h.flatMap (fun e => e.txns.flatMap (fun o => o.spends.map (fun x => (o, x))))

omit S in
/-- the pseudorandom function, as a function of key and input -/
def prfOf (x : F × List F) : F := E.prf x.1 x.2

omit S in
/-- the nullifier key a spend is made with -/
def spendKey (x : Spend) : F := deriveNullifierKeyV x.sk (spendOtherPk x.ro x.who)

omit S in
/-- the hash evaluations behind two spends collide -/
def Clash (x y : Spend) : Prop :=
  Collides prfOf (spendKey x, [x.acc.uid, x.ro.commitment]) (spendKey y, [y.acc.uid, y.ro.commitment]) ∨
    Collides commitOf (x.ro.scalars, x.ro.blind) (y.ro.scalars, y.ro.blind)

omit S in
/-- The spend is made with a secret key of the owner of the record, or of the freezer its policy names.  (If the policy
names none, nobody is its freezer; for placeholders this is not checked.) -/
def HoldsKey (y : Spend) (ro : RecordOpening) : Prop :=
  (y.who = .user ∧ y.sk.val • E.gen = ro.pub_key.address) ∨
    (y.who = .freezer ∧ y.sk.val • E.gen = ro.asset_def.policy.freezer_pk ∧
      (ro.asset_def.policy.freezer_pk = 0 → ro.asset_def.code = dummyCode))

end Cap.Spec
