/-
Specification: what a freezer knows, and what a freezing or a release consists of.
-/
import Verif.SpecScan
import Verif.Model.Freezer

namespace Cap.Spec

open Cap

variable [E : CapEnv] [S : CapExt]

omit S in
/-- the records that the freezer can freeze (`.unfrozen`) or release (`.frozen`), by owner -/
def _root_.Cap.Freezer.shelf (f : Freezer) : FreezeFlag → List (Pt × List (RecordOpening × U64))
  | .unfrozen => f.freezable
  | .frozen => f.releasable

omit S in
/-- the records for which a note was made, by nullifier -/
def _root_.Cap.Freezer.waiting (f : Freezer) : FreezeFlag → List (F × Pending)
  | .unfrozen => f.freezing
  | .frozen => f.releasing

omit S in
/-- the freezer has the record `x` on its list of the user -/
def _root_.Cap.Freezer.Lists (f : Freezer) (flag : FreezeFlag) (user : Pt) (x : RecordOpening × U64) : Prop :=
  ∃ l, mapGet user (f.shelf flag) = some l ∧ x ∈ l

omit S in
/-- the nullifier that the freezer publishes for a record -/
def _root_.Cap.Freezer.nullifier (f : Freezer) (x : RecordOpening × U64) : F :=
  f.keypair.nullify x.1.pub_key.address x.2 x.1.commitment

omit S in
/-- The freezer has the key of its asset. -/
structure Holder (f : Freezer) : Prop where
  pair : f.keypair.pub_key = smulFr f.keypair.sec_key E.gen
  set : f.keypair.pub_key ≠ 0
  policy : f.viewer.asset_def.policy.freezer_pk = f.keypair.pub_key

omit S in
/-- A record of the freezer's asset that is on the ledger, in the state `flag`, and not spent. -/
structure Live (f : Freezer) (s : LedgerState) (flag : FreezeFlag) (x : RecordOpening × U64) : Prop where
  asset : x.1.asset_def = f.viewer.asset_def
  state : x.1.freeze_flag = flag
  owner : x.1.pub_key.address ≠ 0
  leaf : s.leaves[x.2.val]? = some x.1.commitment
  unspent : f.nullifier x ∉ s.nullifiers

omit S in
/-- the record that replaces the record number `j`: the same in the other state, with a new blinding factor -/
def flipped (rng : FreezerRand) (j : ℕ) (x : RecordOpening × U64) : RecordOpening :=
  { x.1 with freeze_flag := x.1.freeze_flag.flip, blind := rng.note.blinds (j + 1) }

omit S in
/-- the first and the last record of a freeze note of the freezer are dummies; as they are before -/
def dummyFirst (rng : FreezerRand) (flag : FreezeFlag) : RecordOpening := RecordOpening.newDummy rng.dummy_key rng.dummy_blind flag

omit S in
def dummyLast (rng : FreezerRand) (flag : FreezeFlag) : RecordOpening := RecordOpening.newDummy rng.dummy_key' rng.dummy_blind' flag

omit S in
/-- and after -/
def dummiesAfter (rng : FreezerRand) (flag : FreezeFlag) (n : ℕ) : RecordOpening × RecordOpening :=
  ({ dummyFirst rng flag with freeze_flag := flag.flip, blind := rng.note.blinds 0 },
    { dummyLast rng flag with freeze_flag := flag.flip, blind := rng.note.blinds (n + 1) })

omit S in
/-- the nullifier of a dummy record of the freezer -/
def dummyNull (ro : RecordOpening) : F := Freezer.defaultKey.nullify ro.pub_key.address 0 ro.commitment

/-- What freezing (or releasing) the records `records` consists of: the native record that pays the fee, its change, and the
note and memos that are published. -/
structure Froze (k : UserKeyPair) (f : Freezer) (rng : FreezerRand) (flag : FreezeFlag) (records : List (RecordOpening × U64))
    (fee : Amount) (coin : RecordOpening × U64) (chg : RecordOpening) (note : FreezeNote) (memos : List E.AeadCt) : Prop where
  held : f.wallet.Holds coin ∧ coin.1.asset_def = AssetDefinition.native
  fee_value : coin.1.amount.val = chg.amount.val + fee.val
  fee_eq : note.aux_info.fee = fee
  change : chg.asset_def = AssetDefinition.native ∧ chg.pub_key = k.pubKey ∧ chg.freeze_flag = .unfrozen ∧
    chg.blind = rng.chg_blind
  nullifiers : note.input_nullifiers = ownNullifier k coin :: dummyNull (dummyFirst rng flag) ::
    (records.map f.nullifier ++ [dummyNull (dummyLast rng flag)])
  outputs : note.output_commitments = (chg :: (dummiesAfter rng flag records.length).1 ::
    (records.mapIdx (flipped rng) ++ [(dummiesAfter rng flag records.length).2])).map RecordOpening.commitment
  memos : memos.length = records.length + 2 ∧ ∀ (j : ℕ) x, records[j]? = some x →
    ∃ c, memos[j + 1]? = some c ∧ ReceiverMemo.fromRo (rng.memos (j + 1)) (flipped rng j x) [] = .ok c

end Cap.Spec
