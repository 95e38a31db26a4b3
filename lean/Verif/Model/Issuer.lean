/-
The asset issuer of `tests/examples.rs`: a wallet that pays the fees, and the assets it has defined.
-/
import Verif.Model.Wallet

namespace Cap

variable [E : CapEnv] [S : CapExt]

/-- `tests/examples.rs:1528-1535` `AssetIssuerMock` -/
structure Issuer where
  wallet : Wallet
  proving_key : MintProvingKey
  /-- `defined_assets`: for each code the definition, the seed and the description -/
  defined : List (AssetCode × (AssetDefinition × F × List Byte))

/-- What `mint` draws. -/
structure MintRand where
  /-- blinding factor of the minted record -/
  blind : F
  /-- randomness of the receiver memo -/
  memo : ℕ
  /-- blinding factor of the change of the fee -/
  chg_blind : F
  /-- randomness of the note -/
  note : TransferRand

namespace Issuer

/-- `tests/examples.rs:1540-1552` `new`, with the key pair of the wallet as parameter -/
def new (k : UserKeyPair) (d : Fin 256) : Res Issuer := do
  let (pk, _) ← unwrapRes (mintPreprocess d)
  .ok ⟨Wallet.new k, pk, []⟩

omit S in
/-- `tests/examples.rs:1555-1567` `new_asset_definition`; `seed` is what `AssetCodeSeed::generate` draws -/
def newAssetDefinition (i : Issuer) (seed : F) (desc : List Byte) (policy : AssetPolicy) : Res (Issuer × AssetCode) := do
  let code := newDomestic seed desc
  let ad ← unwrapRes (AssetDefinition.new code policy)
  .ok ({ i with defined := mapSet code (ad, seed, desc) i.defined }, code)

/-- `tests/examples.rs:1570-1572` `asset_defintion` -/
def assetDefinition (i : Issuer) (code : AssetCode) : Option AssetDefinition := (mapGet code i.defined).map (·.1)

/-- `tests/examples.rs:1575-1628` `mint`; on success the issuer afterwards, the note, the signature of the memo and the
memo.  (After an error the fee record stays marked as being spent; the changed issuer is dropped here.)  The depth
`TREE_DEPTH` is a parameter. -/
def mint (i : Issuer) (d : Fin 256) (s : LedgerState) (rng : MintRand) (fee : Amount) (code : AssetCode) (amount : Amount)
    (owner : UserPubKey) : Res (Issuer × MintNote × E.Sig × E.AeadCt) := do
  let fee_record ← i.wallet.findRecordForFee fee
  let nullifier := i.wallet.keypair.nullify 0 fee_record.2 fee_record.1.commitment
  let w := i.wallet.markUnconfirmedSpent nullifier fee_record.1 fee_record.2
  let acc ← Wallet.lookupFromTree d.val s fee_record.2
  match mapGet code i.defined with
  | none => .error .invalidParameter
  | some (ad, seed, desc) => do
    let mint_record : RecordOpening := ⟨amount, ad, owner, .unfrozen, rng.blind⟩
    let memo ← ReceiverMemo.fromRo rng.memo mint_record []
    let (info, chg) ← unwrapRes (TxnFeeInfo.new rng.chg_blind ⟨fee_record.1, acc, w.keypair⟩ fee)
    let (note, sk) ← MintNote.generate rng.note mint_record seed desc info i.proving_key
    let sig ← signReceiverMemos sk [memo]
    .ok ({ i with wallet := { w with changes := setInsert chg w.changes } }, note, sig, memo)

/-- `tests/examples.rs:1631-1638` `scan_txn` -/
def scanTxn (b : Build) (i : Issuer) (t : TransactionNote) (memos : List E.AeadCt) (uid : U64) : Res Issuer := do
  let (w, _) ← i.wallet.scanTxn b t memos uid
  .ok { i with wallet := w }

end Issuer

end Cap
