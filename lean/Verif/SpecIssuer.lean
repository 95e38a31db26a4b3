/-
Specification: an asset issuer over its lifetime, and what a mint consists of.
-/
import Verif.SpecScan
import Verif.Model.Issuer

namespace Cap.Spec

open Cap

variable [E : CapEnv] [S : CapExt]

/-- What an issuer chose for an asset. -/
structure Declared where
  seed : F
  desc : List Byte
  policy : AssetPolicy

omit S in
/-- the code of the asset -/
def Declared.code (x : Declared) : AssetCode := newDomestic x.seed x.desc

omit S in
/-- the definition of the asset -/
def Declared.definition (x : Declared) : AssetDefinition := ⟨x.code, x.policy⟩

/-- An issuer with key pair `k` that has declared the assets `defs` (the last one last), next to a ledger with the history
`h`.  Its wallet may be in any state that a wallet of this key pair can be in. -/
inductive Issuing (d : Fin 256) (b : Build) (k : UserKeyPair) : List Seen → LedgerState → List Declared → Issuer → Prop
  | start {i} (ok : Issuer.new k d = .ok i) : Issuing d b k [] (LedgerState.new d.val) [] i
  | declare {h s defs i seed desc policy i' code} (before : Issuing d b k h s defs i)
      (ok : i.newAssetDefinition seed desc policy = .ok (i', code)) :
      Issuing d b k h s (defs ++ [⟨seed, desc, policy⟩]) i'
  | wallet {h s defs i h' s' w'} (before : Issuing d b k h s defs i) (world : World d b k h' s' w') :
      Issuing d b k h' s' defs { i with wallet := w' }

/-- What a mint of `amount` units of `ad` for `owner` consists of: the native record that pays the fee, its change, and the
note and memo that are published. -/
structure Minted (k : UserKeyPair) (w : Wallet) (rng : MintRand) (ad : AssetDefinition) (amount : Amount) (owner : UserPubKey)
    (fee : Amount) (coin : RecordOpening × U64) (chg : RecordOpening) (note : MintNote) (memo : E.AeadCt) : Prop where
  held : w.Holds coin ∧ coin.1.asset_def = AssetDefinition.native
  fee_value : coin.1.amount.val = chg.amount.val + fee.val
  fee_eq : note.aux_info.fee = fee
  change : chg.asset_def = AssetDefinition.native ∧ chg.pub_key = k.pubKey ∧ chg.freeze_flag = .unfrozen ∧
    chg.blind = rng.chg_blind
  nullifier : note.input_nullifier = ownNullifier k coin
  first : note.chg_comm = chg.commitment
  minted : note.mint_comm = (⟨amount, ad, owner, .unfrozen, rng.blind⟩ : RecordOpening).commitment ∧
    note.mint_amount = amount ∧ note.mint_asset_def = ad
  memo : ReceiverMemo.fromRo rng.memo ⟨amount, ad, owner, .unfrozen, rng.blind⟩ [] = .ok memo

end Cap.Spec
