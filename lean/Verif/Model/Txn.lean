/-
Model of the functions of `/repo/src/transfer.rs`, `/repo/src/mint.rs`, `/repo/src/freeze.rs` and
`/repo/src/lib.rs`.
-/
import Verif.Model.Proof

namespace Cap

variable [E : CapEnv] [S : CapExt]

/-! ### `transfer.rs` -/

/-- The randomness `TransferNote::generate` draws: the memo signing key, the memo encryption scalar, the
SNARK's seed. -/
structure TransferRand where
  sign_sk : Fr
  enc_rand : Fr
  seed : ℕ

namespace TransferNote

/-- `transfer.rs:283-338` `generate` -/
def generate (b : Build) (rng : TransferRand) (inputs : List TransferNoteInput)
    (outputs : List RecordOpening) (pk : TransferProvingKey) (valid_until : U64) (extra : List Byte) :
    Res (TransferNote × Fr) := do
  ensure (!(inputs.isEmpty || outputs.isEmpty)) .invalidParameter
  let input_ros := inputs.map (·.ro)
  transferCheckProvingKey pk.n_inputs pk.n_outputs pk.tree_depth inputs outputs.length
  transferCheckInputPubKeys inputs
  checkDummyInputs input_ros
  let fee ← checkBalance b input_ros outputs
  transferCheckAssetDef input_ros outputs
  checkUnfrozen input_ros outputs
  let merkle_root ← transferCheckAndGetRoots inputs
  transferCheckCreds valid_until inputs
  let ver_key := smulFr rng.sign_sk E.gen
  let witness ← TransferWitness.newUnchecked rng.enc_rand inputs outputs
  let pub ← TransferPublicInput.fromWitness witness valid_until
  checkDistinctInputNullifiers pub.input_nullifiers
  let proof ← transferProve pk witness pub ver_key extra rng.seed
  .ok ({ inputs_nullifiers := pub.input_nullifiers, output_commitments := pub.output_commitments, proof,
         viewing_memo := pub.viewing_memo,
         aux_info := ⟨merkle_root, fee, valid_until, ver_key, extra⟩ }, rng.sign_sk)

/-- `transfer.rs:147-224` `generate_native`; `chg_blind` is the blinding factor drawn for the change
record -/
def generateNative (b : Build) (chg_blind : F) (rng : TransferRand) (inputs : List TransferNoteInput)
    (outputs : List RecordOpening) (fee : Amount) (valid_until : U64) (pk : TransferProvingKey) :
    Res (TransferNote × Fr × RecordOpening) :=
  match inputs with
  | [] => .error .panic
  | i0 :: is => do
    ensure (!(!i0.ro.asset_def.isNative || is.any (fun i => !(i.ro.isDummy || i.ro.asset_def.isNative)) ||
      outputs.any (fun o => !o.asset_def.isNative))) .invalidParameter
    let total_in ← safeSumOr ((inputs.filter (fun i => !i.ro.isDummy)).map (·.ro.amount))
    let total_out ← safeSumOr (outputs.map (·.amount))
    let need ← addU128 b total_out fee
    ensure (!decide (total_in < need)) .invalidParameter
    -- in a debug build `need` did not overflow, so the two subtractions do not either; in a release
    -- build they wrap, like the subtraction of `Fin`
    let fee_change := total_in - total_out - fee
    let chg : RecordOpening :=
      { amount := fee_change, asset_def := AssetDefinition.native, pub_key := i0.ro.pub_key,
        freeze_flag := .unfrozen, blind := chg_blind }
    let (note, sk) ← generate b rng inputs (chg :: outputs) pk valid_until []
    .ok (note, sk, chg)

/-- `transfer.rs:244-269` `generate_non_native` -/
def generateNonNative (b : Build) (rng : TransferRand) (inputs : List TransferNoteInput)
    (outputs : List RecordOpening) (fee : TxnFeeInfo) (valid_until : U64) (pk : TransferProvingKey)
    (extra : List Byte) : Res (TransferNote × Fr) := do
  checkFee fee
  generate b rng (fee.fee_input.toTransferInput :: inputs) (fee.fee_chg_ro :: outputs) pk valid_until extra

/-- `transfer.rs:370-400` `check_instance_and_get_public_input_internal` -/
def checkInstance (n : TransferNote) (root : F) (timestamp : U64) : Res TransferPublicInput :=
  if root ≠ n.aux_info.merkle_root then .error .failedTransactionVerification
  else if timestamp > n.aux_info.valid_until then .error .failedTransactionVerification
  else .ok
    { merkle_root := root, native_asset_code := nativeCode, valid_until := n.aux_info.valid_until,
      fee := n.aux_info.fee, input_nullifiers := n.inputs_nullifiers,
      output_commitments := n.output_commitments, viewing_memo := n.viewing_memo }

/-- `transfer.rs:345-363` `verify` -/
def verify (n : TransferNote) (vk : TransferVerifyingKey) (root : F) (timestamp : U64) : Res Unit := do
  let pub ← n.checkInstance root timestamp
  transferVerify vk pub n.proof n.aux_info.txn_memo_ver_key n.aux_info.extra_proof_bound_data

end TransferNote

/-! ### `mint.rs` -/

namespace MintNote

/-- `mint.rs:90-152` `generate` -/
def generate (rng : TransferRand) (mint_ro : RecordOpening) (ac_seed : F) (ac_description : List Byte)
    (fee : TxnFeeInfo) (pk : MintProvingKey) : Res (MintNote × Fr) := do
  let acc := fee.fee_input.acc
  let ac_digest := E.descDigest ac_description
  mintCheckProvingKey pk.tree_depth acc
  mintCheckInputPubKey fee.fee_input.ro fee.fee_input.owner_keypair
  mintCheckAssetCode mint_ro ac_seed ac_digest
  checkFee fee
  checkUnfrozen [fee.fee_input.ro] [fee.fee_chg_ro, mint_ro]
  let ver_key := smulFr rng.sign_sk E.gen
  let witness : MintWitness :=
    { minter_keypair := fee.fee_input.owner_keypair, acc, fee_ro := fee.fee_input.ro, mint_ro,
      chg_ro := fee.fee_chg_ro, ac_seed, ac_digest, enc_rand := rng.enc_rand }
  let pub ← MintPublicInput.fromWitness witness
  let proof ← mintProve pk witness pub ver_key rng.seed
  .ok ({ input_nullifier := pub.input_nullifier, chg_comm := pub.chg_rc, mint_comm := pub.mint_rc,
         mint_amount := mint_ro.amount, mint_asset_def := mint_ro.asset_def,
         mint_internal_asset_code := internalCodeOfDesc ac_seed ac_description, proof,
         viewing_memo := pub.viewing_memo, aux_info := ⟨acc.root, fee.fee_amount, ver_key⟩ }, rng.sign_sk)

/-- `mint.rs:175-198` `check_instance_and_get_public_input` -/
def checkInstance (n : MintNote) (root : F) : Res MintPublicInput :=
  if root ≠ n.aux_info.merkle_root then .error .failedTransactionVerification
  else .ok
    { merkle_root := root, native_asset_code := nativeCode, input_nullifier := n.input_nullifier,
      fee := n.aux_info.fee, mint_rc := n.mint_comm, chg_rc := n.chg_comm, mint_amount := n.mint_amount,
      mint_ac := n.mint_asset_def.code, mint_internal_ac := n.mint_internal_asset_code,
      mint_policy := n.mint_asset_def.policy, viewing_memo := n.viewing_memo }

/-- `mint.rs:155-170` `verify` -/
def verify (n : MintNote) (vk : MintVerifyingKey) (root : F) : Res Unit := do
  let pub ← n.checkInstance root
  verifyDomestic n.mint_asset_def.code n.mint_internal_asset_code
  mintVerify vk pub n.proof n.aux_info.txn_memo_ver_key

end MintNote

/-! ### `freeze.rs` -/

/-- The randomness `FreezeNote::generate` draws: blinding factors of the outputs, memo signing key, SNARK
seed. -/
structure FreezeRand where
  blinds : ℕ → F
  sign_sk : Fr
  seed : ℕ

namespace FreezeNote

/-- `freeze.rs:97-156` `generate` -/
def generate (rng : FreezeRand) (inputs : List FreezeNoteInput) (fee : TxnFeeInfo) (pk : FreezeProvingKey) :
    Res (FreezeNote × Fr × List RecordOpening) := do
  freezeCheckInputsLen inputs.length
  freezeCheckProvingKey pk.num_input pk.tree_depth (inputs.length + 1)
    (Fin.ofNat 256 fee.fee_input.acc.path.length)
  let merkle_root ← freezeCheckAndGetRoot fee.fee_input inputs
  freezeCheckPolicies inputs
  checkFee fee
  let output_ros := freezeGetOutputRos rng.blinds inputs
  let ver_key := smulFr rng.sign_sk E.gen
  let witness := FreezeWitness.newUnchecked inputs output_ros fee
  let pub ← FreezePublicInput.fromWitness witness
  checkDistinctInputNullifiers pub.input_nullifiers
  let proof ← freezeProve pk witness pub ver_key rng.seed
  .ok ({ input_nullifiers := pub.input_nullifiers, output_commitments := pub.output_commitments, proof,
         aux_info := ⟨merkle_root, fee.fee_amount, ver_key⟩ }, rng.sign_sk, output_ros)

/-- `freeze.rs:180-198` `check_instance_and_get_public_input` -/
def checkInstance (n : FreezeNote) (root : F) : Res FreezePublicInput :=
  if root ≠ n.aux_info.merkle_root then .error .failedTransactionVerification
  else .ok
    { merkle_root := root, native_asset_code := nativeCode, fee := n.aux_info.fee,
      input_nullifiers := n.input_nullifiers, output_commitments := n.output_commitments }

/-- `freeze.rs:163-175` `verify` -/
def verify (n : FreezeNote) (vk : FreezeVerifyingKey) (root : F) : Res Unit := do
  let pub ← n.checkInstance root
  freezeVerify vk pub n.proof n.aux_info.txn_memo_ver_key

end FreezeNote

/-! ### `lib.rs` -/

/-- `lib.rs:206-213` -/
inductive TransactionNote where
  | transfer (n : TransferNote)
  | mint (n : MintNote)
  | freeze (n : FreezeNote)
deriving DecidableEq

namespace TransactionNote

/-- `lib.rs:281-287` -/
def nullifiers : TransactionNote → List F
  | .transfer n => n.inputs_nullifiers
  | .mint n => [n.input_nullifier]
  | .freeze n => n.input_nullifiers

/-- `lib.rs:289-295` -/
def outputCommitments : TransactionNote → List F
  | .transfer n => n.output_commitments
  | .mint n => [n.chg_comm, n.mint_comm]
  | .freeze n => n.output_commitments

/-- `lib.rs:297-303` -/
def outputLen : TransactionNote → ℕ
  | .transfer n => n.output_commitments.length
  | .mint _ => 2
  | .freeze n => n.output_commitments.length

/-- `lib.rs:306-312` -/
def merkleRoot : TransactionNote → F
  | .transfer n => n.aux_info.merkle_root
  | .mint n => n.aux_info.merkle_root
  | .freeze n => n.aux_info.merkle_root

/-- `lib.rs:331-337` -/
def validityProof : TransactionNote → S.Proof
  | .transfer n => n.proof
  | .mint n => n.proof
  | .freeze n => n.proof

/-- `lib.rs:345-351` -/
def txnMemoVerKey : TransactionNote → Pt
  | .transfer n => n.aux_info.txn_memo_ver_key
  | .mint n => n.aux_info.txn_memo_ver_key
  | .freeze n => n.aux_info.txn_memo_ver_key

/-- the fee of `lib.rs:578-582` -/
def fee : TransactionNote → Amount
  | .transfer n => n.aux_info.fee
  | .mint n => n.aux_info.fee
  | .freeze n => n.aux_info.fee

/-- `lib.rs:315-328` `verify_receiver_memos_signature` -/
def verifyReceiverMemosSignature (t : TransactionNote) (memos : List E.AeadCt) (sig : E.Sig) : Res Unit := do
  let digest ← getReceiverMemosDigest memos
  ensure (E.schnorrVerify (E.xy t.txnMemoVerKey) [digest] sig) .failedReceiverMemoSignature

/-- the `match txn` of `lib.rs:470-484`: check the instance, return the public inputs -/
def publicScalars (t : TransactionNote) (root : F) (timestamp : U64) : Res (List F) :=
  match t with
  | .transfer n => do
    let pi ← n.checkInstance root timestamp
    .ok pi.toScalars
  | .mint n => do
    let pi ← n.checkInstance root
    .ok pi.toScalars
  | .freeze n => do
    let pi ← n.checkInstance root
    .ok pi.toScalars

/-- the message of `lib.rs:498-512` -/
def extMsg (t : TransactionNote) : List Byte :=
  E.verKeyBytes t.txnMemoVerKey ++
    match t with
    | .transfer n => n.aux_info.extra_proof_bound_data
    | _ => []

end TransactionNote

omit S in
/-- `lib.rs:589-598` `sign_receiver_memos`; the key pair is given by its secret key -/
def signReceiverMemos (sk : Fr) (memos : List E.AeadCt) : Res E.Sig := do
  let digest ← getReceiverMemosDigest memos
  .ok (E.schnorrSign sk [digest])

/-- `lib.rs:376-383` -/
inductive TransactionVerifyingKey where
  | transfer (k : TransferVerifyingKey)
  | mint (k : MintVerifyingKey)
  | freeze (k : FreezeVerifyingKey)

/-- `lib.rs:442-448` `get_key_ref` -/
def TransactionVerifyingKey.keyRef : TransactionVerifyingKey → S.Vk
  | .transfer k => k.key
  | .mint k => k.key
  | .freeze k => k.key

/-- the loop of `lib.rs:467-485`: the public inputs of all notes, or the first error -/
def batchPublicInputs (timestamp : U64) : List TransactionNote → List F → Res (List (List F))
  | t :: ts, r :: rs => do
    let x ← t.publicScalars r timestamp
    let xs ← batchPublicInputs timestamp ts rs
    .ok (x :: xs)
  | _, _ => .ok []

/-- the four parallel vectors passed to jf-plonk, `lib.rs:487-521` -/
def batchItems : List TransactionNote → List (List F) → List TransactionVerifyingKey →
    List (S.Vk × List F × S.Proof × List Byte)
  | t :: ts, x :: xs, k :: ks => (k.keyRef, x, t.validityProof, t.extMsg) :: batchItems ts xs ks
  | _, _, _ => []

/-- `lib.rs:455-529` `txn_batch_verify` -/
def txnBatchVerify (txns : List TransactionNote) (roots : List F) (timestamp : U64)
    (keys : List TransactionVerifyingKey) : Res Unit :=
  if txns.length ≠ keys.length ∨ txns.length ≠ roots.length then .error .invalidParameter
  else do
    let xs ← batchPublicInputs timestamp txns roots
    ensure (S.batchVerify (batchItems txns xs keys)) .failedSnark

/-- `lib.rs:575-586` `calculate_fee` -/
def calculateFee (txns : List TransactionNote) : Res Amount :=
  match safeSumAmount (txns.map TransactionNote.fee) with
  | some a => .ok a
  | none => .error .incorrectFee

omit S in
/-- the record of `lib.rs:562-568` -/
def feeRecord (pk : UserPubKey) (fee : Amount) (blind : F) : RecordOpening :=
  { amount := fee, asset_def := AssetDefinition.native, pub_key := pk, freeze_flag := .unfrozen, blind }

omit S in
/-- `lib.rs:540-572` `derive_txns_fee_records` -/
def deriveTxnsFeeRecords (collectors : List UserPubKey) (fees : List Amount) (blinds : List F) : Res (List F) :=
  if fees = [] then .error .invalidParameter
  else if fees.length ≠ collectors.length ∨ fees.length ≠ blinds.length then .error .invalidParameter
  else .ok ((fees.zip (collectors.zip blinds)).map (fun x => (feeRecord x.2.1 x.1 x.2.2).commitment))

/-! ### Tagged codecs (`lib.rs:215-267`, `lib.rs:385-439`) -/

/-- A derived `CanonicalSerialize`/`CanonicalDeserialize` pair of arkworks: the derive macro writes the
fields one after the other.  Only the round trip is assumed. -/
structure Codec (α : Type) where
  ser : α → List Byte
  de : Reader α
  round_trip : ∀ x rest, de (ser x ++ rest) = .ok (x, rest)

omit E S in
/-- The shape shared by the two enums: one tag byte, then the payload.  `lib.rs:215-242`, `lib.rs:385-411`. -/
def taggedSer {α β γ τ : Type} (a : Codec α) (b : Codec β) (c : Codec γ) (cases : τ → α ⊕ β ⊕ γ) (t : τ) :
    List Byte :=
  match cases t with
  | .inl x => 0 :: a.ser x
  | .inr (.inl x) => 1 :: b.ser x
  | .inr (.inr x) => 2 :: c.ser x

omit E S in
/-- `lib.rs:247-267`, `lib.rs:421-439` -/
def taggedDe {α β γ τ : Type} (a : Codec α) (b : Codec β) (c : Codec γ) (build : α ⊕ β ⊕ γ → τ) : Reader τ :=
  fun bs => do
    let (flag, rest) ← readExact 1 bs
    match flag with
    | [0] =>
      let (x, rest) ← a.de rest
      .ok (build (.inl x), rest)
    | [1] =>
      let (x, rest) ← b.de rest
      .ok (build (.inr (.inl x)), rest)
    | [2] =>
      let (x, rest) ← c.de rest
      .ok (build (.inr (.inr x)), rest)
    | _ => .error .invalidData

/-- the three variants of a note -/
def TransactionNote.cases : TransactionNote → TransferNote ⊕ MintNote ⊕ FreezeNote
  | .transfer n => .inl n
  | .mint n => .inr (.inl n)
  | .freeze n => .inr (.inr n)

/-- the three constructors of a note -/
def TransactionNote.build : TransferNote ⊕ MintNote ⊕ FreezeNote → TransactionNote
  | .inl n => .transfer n
  | .inr (.inl n) => .mint n
  | .inr (.inr n) => .freeze n

/-- the three variants of a verifying key -/
def TransactionVerifyingKey.cases :
    TransactionVerifyingKey → TransferVerifyingKey ⊕ MintVerifyingKey ⊕ FreezeVerifyingKey
  | .transfer n => .inl n
  | .mint n => .inr (.inl n)
  | .freeze n => .inr (.inr n)

/-- the three constructors of a verifying key -/
def TransactionVerifyingKey.build :
    TransferVerifyingKey ⊕ MintVerifyingKey ⊕ FreezeVerifyingKey → TransactionVerifyingKey
  | .inl n => .transfer n
  | .inr (.inl n) => .mint n
  | .inr (.inr n) => .freeze n

/-- The public input a transfer note is verified with, under its own root
(`transfer.rs:370-400`). -/
def TransferNote.pub (n : TransferNote) : TransferPublicInput :=
  { merkle_root := n.aux_info.merkle_root, native_asset_code := nativeCode, valid_until := n.aux_info.valid_until,
    fee := n.aux_info.fee, input_nullifiers := n.inputs_nullifiers,
    output_commitments := n.output_commitments, viewing_memo := n.viewing_memo }

/-- The public input a mint note is verified with, under its own root
(`mint.rs:175-205`). -/
def MintNote.pub (n : MintNote) : MintPublicInput :=
  { merkle_root := n.aux_info.merkle_root, native_asset_code := nativeCode, input_nullifier := n.input_nullifier,
    fee := n.aux_info.fee, mint_rc := n.mint_comm, chg_rc := n.chg_comm, mint_amount := n.mint_amount,
    mint_ac := n.mint_asset_def.code, mint_internal_ac := n.mint_internal_asset_code,
    mint_policy := n.mint_asset_def.policy, viewing_memo := n.viewing_memo }

/-- The public input a freeze note is verified with, under its own root
(`freeze.rs:180-205`). -/
def FreezeNote.pub (n : FreezeNote) : FreezePublicInput :=
  { merkle_root := n.aux_info.merkle_root, native_asset_code := nativeCode, fee := n.aux_info.fee,
    input_nullifiers := n.input_nullifiers, output_commitments := n.output_commitments }

end Cap
