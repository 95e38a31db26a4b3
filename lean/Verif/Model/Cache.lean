/-
The caches of keys in `tests/examples.rs`: a validator keeps the verifying keys it has computed, wallets and freezers keep
their proving keys, all of them in hash maps from descriptions such as "Xfr_2_3".  `Model/Ledger.lean`, `Model/Wallet.lean`
and `Model/Freezer.lean` leave the caches out; here they are put back.
-/
import Verif.Model.Validator
import Verif.Model.Freezer

namespace Cap

variable [E : CapEnv] [S : CapExt]

omit E S in
/-- `format!("Xfr_{}_{}", n_inputs, n_outputs)`, `tests/examples.rs:445`, `1145`, `1162` -/
def xfrDescription (n_inputs n_outputs : ℕ) : String := "Xfr_" ++ toString n_inputs ++ "_" ++ toString n_outputs

omit E S in
/-- `String::from("Mint")`, `tests/examples.rs:428` -/
def mintDescription : String := "Mint"

omit E S in
/-- `format!("Freeze_{}", n_inputs)`, `tests/examples.rs:459`, `646`, `657` -/
def freezeDescription (n_inputs : ℕ) : String := "Freeze_" ++ toString n_inputs

/-! ### The validator -/

/-- `tests/examples.rs:238-244` `ValidatorMock`; the structured reference string is part of `preprocess` here -/
structure Validator where
  /-- `verifying_keys` -/
  keys : List (String × TransactionVerifyingKey)
  /-- the key pair of the wallet -/
  keypair : UserKeyPair

namespace Validator

/-- `tests/examples.rs:248-257` `new`, with the key pair as parameter -/
def new (k : UserKeyPair) : Validator := ⟨[], k⟩

/-- the common shape of `get_mint_verifying_key`, `get_xfr_verifying_key` and `get_freeze_verifying_key`: the key under
this description, which is computed and entered if there is none; the validator afterwards, and the result -/
def getKey (v : Validator) (description : String) (compute : Res TransactionVerifyingKey) :
    Validator × Res TransactionVerifyingKey :=
  match mapGet description v.keys with
  | some k => (v, .ok k)
  | none =>
    match unwrapRes compute with
    | .error e => (v, .error e)
    | .ok k => ({ v with keys := mapSet description k v.keys }, .ok k)

/-- `tests/examples.rs:427-438` `get_mint_verifying_key` -/
def getMintKey (v : Validator) (d : Fin 256) : Validator × Res TransactionVerifyingKey :=
  v.getKey mintDescription ((mintPreprocess d).map (fun k => .mint k.2))

/-- `tests/examples.rs:440-456` `get_xfr_verifying_key` -/
def getXfrKey (v : Validator) (d : Fin 256) (n_inputs n_outputs : ℕ) : Validator × Res TransactionVerifyingKey :=
  v.getKey (xfrDescription n_inputs n_outputs) ((transferPreprocess n_inputs n_outputs d).map (fun k => .transfer k.2))

/-- `tests/examples.rs:458-469` `get_freeze_verifying_key` -/
def getFreezeKey (v : Validator) (d : Fin 256) (n_inputs : ℕ) : Validator × Res TransactionVerifyingKey :=
  v.getKey (freezeDescription n_inputs) ((freezePreprocess n_inputs d).map (fun k => .freeze k.2))

/-- `tests/examples.rs:385-400` -/
def keyFor (v : Validator) (d : Fin 256) : TransactionNote → Validator × Res TransactionVerifyingKey
  | .transfer n => v.getXfrKey d n.inputs_nullifiers.length n.output_commitments.length
  | .mint _ => v.getMintKey d
  | .freeze n => v.getFreezeKey d n.input_nullifiers.length

/-- the loop of `validate_txns_batch`, `tests/examples.rs:383-415` -/
def loop (d : Fin 256) (s : LedgerState) :
    Validator → List TransactionNote → List F → Validator × Res (List TransactionVerifyingKey × List F)
  | v, [], _ => (v, .ok ([], []))
  | v, t :: ts, checked =>
    match v.keyFor d t with
    | (v, .error e) => (v, .error e)
    | (v, .ok k) =>
      match checkTxnInputNullifiers s t.nullifiers checked with
      | .error e => (v, .error e)
      | .ok checked =>
        if t.merkleRoot ∈ s.roots then
          match loop d s v ts checked with
          | (v, .error e) => (v, .error e)
          | (v, .ok r) => (v, .ok (k :: r.1, t.merkleRoot :: r.2))
        else (v, .error .invalidParameter)

/-- `tests/examples.rs:374-425` `validate_txns_batch` -/
def validateTxnsBatch (v : Validator) (d : Fin 256) (s : LedgerState) (txns : List TransactionNote) (timestamp : U64) :
    Validator × Res Unit :=
  match loop d s v txns [] with
  | (v, .error e) => (v, .error e)
  | (v, .ok r) => (v, txnBatchVerify txns r.2 timestamp r.1)

/-- `tests/examples.rs:274-308` `validate_single_xfr_note` -/
def validateSingleXfrNote (v : Validator) (d : Fin 256) (s : LedgerState) (n : TransferNote) (timestamp : U64) :
    Validator × Res Unit :=
  match v.getXfrKey d n.inputs_nullifiers.length n.output_commitments.length with
  | (v, .error e) => (v, .error e)
  | (v, .ok k) => (v, do
      let _ ← checkTxnInputNullifiers s n.inputs_nullifiers []
      ensure (n.aux_info.merkle_root ∈ s.roots) .invalidParameter
      match k with
      | .transfer k => n.verify k n.aux_info.merkle_root timestamp
      | _ => .error .panic)

/-- `tests/examples.rs:349-371` `validate_block` -/
def validateBlock (ser : MockBlock → List Byte) (v : Validator) (d : Fin 256) (s : LedgerState) (block : MockBlock)
    (sig : E.Sig) (timestamp : U64) (proposer_pub_key : UserPubKey) : Validator × Res Unit :=
  if block.proposer_pub_key = proposer_pub_key then
    match proposer_pub_key.verifySig (ser block) sig with
    | .error e => (v, .error e)
    | .ok () => v.validateTxnsBatch d s block.txns timestamp
  else (v, .error .invalidParameter)

end Validator

/-! ### Wallets and freezers

As in `Model/Wallet.lean` a call that fails returns no wallet.  -/

omit E S in
/-- `get_proving_key`, and `compute_proving_key` if there is none (`tests/examples.rs:1140-1154`, `645-654`): the key, and
what to enter into the cache once the note has been generated (`insert_proving_key`) -/
def cachedKey {α : Type} (keys : List (String × α)) (description : String) (compute : Res α) : Res (α × List (String × α)) :=
  match mapGet description keys with
  | some k => .ok (k, keys)
  | none =>
    match compute with
    | .error _ => .error .panic
    | .ok k => .ok (k, mapSet description k keys)

/-- a wallet with its cache `proving_keys` -/
structure CachingWallet where
  wallet : Wallet
  keys : List (String × TransferProvingKey)

namespace CachingWallet

/-- `tests/examples.rs:1216-1321` `spend_native`, with the cache -/
def spendNative (b : Build) (w : CachingWallet) (d : Fin 256) (s : LedgerState) (rng : PaymentRand)
    (recipients : List (UserPubKey × Amount)) (fee : Amount) :
    Res (CachingWallet × TransferNote × List E.AeadCt × E.Sig) := do
  let total_output ← sumU128 b 0 (recipients.map (·.2))
  let total_output ← addU128 b total_output fee
  let (records, _) ← Wallet.findRecords b w.wallet nativeCode total_output
  let records := records ++ [(RecordOpening.newDummy rng.dummy_key rng.dummy_blind .unfrozen, 0)]
  let inputs ← Wallet.prepareInputs w.wallet d.val s none rng.dummy_key records
  let outputs := Wallet.payOutputs rng.blinds AssetDefinition.native recipients
  let (key, keys) ← cachedKey w.keys (xfrDescription inputs.length (outputs.length + 1))
    ((transferPreprocess inputs.length (outputs.length + 1) d).map (·.1))
  let (note, sk, chg) ← TransferNote.generateNative b rng.chg_blind rng.note inputs outputs fee
    Wallet.unexpiredValidUntil key
  let memos ← Wallet.payMemos rng.memos 0 outputs
  let sig ← signReceiverMemos sk memos
  let w := w.wallet.markAll records
  .ok (⟨{ w with changes := setInsert chg w.changes }, keys⟩, note, memos, sig)

/-- `tests/examples.rs:1327-1477` `spend_non_native`, with the cache -/
def spendNonNative (b : Build) (cw : CachingWallet) (d : Fin 256) (s : LedgerState) (rng : PaymentRand) (ad : AssetDefinition)
    (recipients : List (UserPubKey × Amount)) (fee : Amount) :
    Res (CachingWallet × TransferNote × List E.AeadCt × E.Sig) := do
  let w := cw.wallet
  ensure (ad ≠ AssetDefinition.native) .panic
  let total_output ← sumU128 b 0 (recipients.map (·.2))
  let fee_record ← Wallet.findRecordForFee w fee
  let acc ← Wallet.lookupFromTree d.val s fee_record.2
  let (info, chg) ← unwrapRes (TxnFeeInfo.new rng.chg_blind ⟨fee_record.1, acc, w.keypair⟩ fee)
  let (records, change) ← Wallet.findRecords b w ad.code total_output
  let records := records ++ [(RecordOpening.newDummy rng.dummy_key rng.dummy_blind .unfrozen, 0)]
  let inputs ← Wallet.prepareInputs w d.val s w.credential rng.dummy_key records
  let recipients := if 0 < change then recipients ++ [(w.pubKey, change)] else recipients
  let outputs := Wallet.payOutputs rng.blinds ad recipients
  let valid_until := match w.credential with
    | none => Wallet.unexpiredValidUntil
    | some c => c.expiry
  let (key, keys) ← cachedKey cw.keys (xfrDescription (inputs.length + 1) (outputs.length + 1))
    ((transferPreprocess (inputs.length + 1) (outputs.length + 1) d).map (·.1))
  let (note, sk) ← TransferNote.generateNonNative b rng.note inputs outputs info valid_until key []
  let memos ← Wallet.payMemos rng.memos 0 outputs
  let sig ← signReceiverMemos sk memos
  let w := (w.markUnconfirmedSpent (w.nullify fee_record) fee_record.1 fee_record.2).markAll records
  .ok (⟨{ w with changes := setInsert chg w.changes }, keys⟩, note, memos, sig)

end CachingWallet

/-- a freezer with its cache `proving_keys` -/
structure CachingFreezer where
  freezer : Freezer
  keys : List (String × FreezeProvingKey)

/-- `tests/examples.rs:836-980` `freeze_user_internal`, with the cache -/
def CachingFreezer.freezeUser (cf : CachingFreezer) (d : Fin 256) (s : LedgerState) (rng : FreezerRand) (flag : FreezeFlag)
    (user : Pt) (fee : Amount) : Res (CachingFreezer × FreezeNote × List E.AeadCt × E.Sig) :=
  let f := cf.freezer
  match mapGet user (match flag with | .unfrozen => f.freezable | .frozen => f.releasable) with
  | none => .error .invalidParameter
  | some records => do
    let fee_record ← f.wallet.findRecordForFee fee
    let acc ← Wallet.lookupFromTree d.val s fee_record.2
    let nullifier := f.wallet.keypair.nullify 0 fee_record.2 fee_record.1.commitment
    let w := f.wallet.markUnconfirmedSpent nullifier fee_record.1 fee_record.2
    let (info, chg) ← unwrapRes (TxnFeeInfo.new rng.chg_blind ⟨fee_record.1, acc, w.keypair⟩ fee)
    let inputs ← f.freezeInputs d.val s records
    let inputs := ⟨RecordOpening.newDummy rng.dummy_key rng.dummy_blind flag, Wallet.dummyWitness d.val, Freezer.defaultKey⟩ ::
      inputs ++ [⟨RecordOpening.newDummy rng.dummy_key' rng.dummy_blind' flag, Wallet.dummyWitness d.val, Freezer.defaultKey⟩]
    let (key, keys) ← cachedKey cf.keys (freezeDescription (inputs.length + 1))
      ((freezePreprocess (inputs.length + 1) d).map (·.1))
    let (note, sk, outs) ← unwrapRes (FreezeNote.generate rng.note inputs info key)
    let memos ← unwrapRes (Wallet.payMemos rng.memos 0 outs)
    let sig ← signReceiverMemos sk memos
    let f' := { f with wallet := { w with changes := setInsert chg w.changes } }
    match flag with
    | .unfrozen => do
      let freezing ← f.markPending outs records f.freezing
      .ok (⟨{ f' with freezing }, keys⟩, note, memos, sig)
    | .frozen => do
      let releasing ← f.markPending outs records f.releasing
      .ok (⟨{ f' with releasing }, keys⟩, note, memos, sig)

end Cap
