/-
Model of `/repo/src/proof/transfer.rs`, `/repo/src/proof/mint.rs`, `/repo/src/proof/freeze.rs`, and of the
functions of `/repo/src/circuit/*.rs` that assign host values to circuit variables (`toV`).
-/
import Verif.Model.Utils

namespace Cap

variable [E : CapEnv]

/-! ### Host values as circuit values -/

/-- `circuit/structs.rs:205-226` `AssetPolicyVar::new` -/
def AssetPolicy.toV (p : AssetPolicy) : PolicyV :=
  ⟨E.xy p.viewer_pk, E.xy p.cred_pk, E.xy p.freezer_pk, p.reveal_map.toScalar, Amount.toF p.reveal_threshold⟩

/-- `FreezeFlag` as a `BoolVar` (`circuit/structs.rs:130`) -/
def FreezeFlag.toBool : FreezeFlag → Bool
  | .unfrozen => false
  | .frozen => true

/-- `circuit/structs.rs:118-141` `RecordOpeningVar::new` -/
def RecordOpening.toV (ro : RecordOpening) : RecordV :=
  ⟨Amount.toF ro.amount, ro.asset_def.code, E.xy ro.pub_key.address, ro.asset_def.policy.toV,
   ro.freeze_flag.toBool, ro.blind⟩

/-- `circuit/structs.rs:362-392` `ExpirableCredVar::new` -/
def ExpirableCredential.toV (c : ExpirableCredential) : CredV :=
  ⟨c.attrs, (c.expiry.val : F), c.cred, E.xy c.user_addr, E.xy c.creator_pk⟩

/-- jf-primitives `AccMemberWitnessVar::new` -/
def AccMemberWitness.toV (a : AccMemberWitness) : AccV := ⟨(a.uid.val : F), a.path⟩

/-- `circuit/structs.rs:36-44` `ViewableMemoVar::new` -/
def ViewableMemo.toV (m : ViewableMemo) : MemoV := ⟨E.xy m.ephemeral, m.data⟩

/-- jf-primitives `elgamal::Ciphertext::to_scalars` -/
def ViewableMemo.toScalars (m : ViewableMemo) : List F := [ptX m.ephemeral, ptY m.ephemeral] ++ m.data

/-! ### Transfer (`proof/transfer.rs`) -/

/-- `proof/transfer.rs:309-314` -/
structure InputSecret where
  owner_keypair : UserKeyPair
  ro : RecordOpening
  acc : AccMemberWitness
  cred : ExpirableCredential

/-- `proof/transfer.rs:216-221` -/
structure TransferWitness where
  asset_def : AssetDefinition
  input_secrets : List InputSecret
  output_ros : List RecordOpening
  enc_rand : Fr

/-- `proof/transfer.rs:319-334` -/
structure TransferPublicInput where
  merkle_root : F
  native_asset_code : AssetCode
  valid_until : U64
  fee : Amount
  input_nullifiers : List F
  output_commitments : List F
  viewing_memo : ViewableMemo
deriving DecidableEq

/-- `circuit/transfer.rs:383-404` `InputSecretVar::new` -/
def InputSecret.toV (i : InputSecret) : InputV := ⟨frToFq i.owner_keypair.sk, i.ro.toV, i.acc.toV, i.cred.toV⟩

/-- `circuit/transfer.rs:298-326` `TransferWitnessVar::new` -/
def TransferWitness.toV (w : TransferWitness) : TransferWit :=
  ⟨w.asset_def.code, w.asset_def.policy.toV, w.input_secrets.map InputSecret.toV,
   w.output_ros.map RecordOpening.toV, frToFq w.enc_rand⟩

/-- `circuit/transfer.rs:341-371` `TransferPubInputVar::new` -/
def TransferPublicInput.toV (p : TransferPublicInput) : TransferPub :=
  ⟨p.merkle_root, p.native_asset_code, (p.valid_until.val : F), Amount.toF p.fee, p.input_nullifiers,
   p.output_commitments, p.viewing_memo.toV⟩

/-- `proof/transfer.rs:443-458` -/
def TransferPublicInput.toScalars (p : TransferPublicInput) : List F :=
  [p.merkle_root, p.native_asset_code, (p.valid_until.val : F), Amount.toF p.fee] ++ p.input_nullifiers ++
    p.output_commitments ++ p.viewing_memo.toScalars

/-- the loop of `proof/transfer.rs:274-279`: the *last* definition that is neither native nor dummy -/
def witnessAssetDef (inputs : List TransferNoteInput) : AssetDefinition :=
  inputs.foldl (fun acc i =>
    if !i.ro.asset_def.isNative && !i.ro.asset_def.isDummy then i.ro.asset_def else acc)
    AssetDefinition.native

/-- the credential of `proof/transfer.rs:282-288` -/
def inputCred (i : TransferNoteInput) : Res ExpirableCredential :=
  if i.ro.asset_def.policy.cred_pk = 0 then ExpirableCredential.dummyUnexpired
  else match i.cred with
    | some c => .ok c
    | none => .error .invalidParameter

/-- the closure of `proof/transfer.rs:281-295` -/
def inputSecretOf (i : TransferNoteInput) : Res InputSecret := do
  let cred ← inputCred i
  .ok ⟨i.owner_keypair, i.ro, i.acc, cred⟩

/-- `proof/transfer.rs:269-305` `new_unchecked`; `enc_rand` is the drawn scalar -/
def TransferWitness.newUnchecked (enc_rand : Fr) (inputs : List TransferNoteInput)
    (output_ros : List RecordOpening) : Res TransferWitness := do
  let input_secrets ← inputs.mapM inputSecretOf
  .ok ⟨witnessAssetDef inputs, input_secrets, output_ros, enc_rand⟩

/-- the closure of `proof/transfer.rs:388-397` -/
def InputSecret.nullifier (s : InputSecret) : F :=
  s.owner_keypair.nullify s.ro.asset_def.policy.freezer_pk s.acc.uid s.ro.commitment

omit E in
/-- `u128::checked_sub(a, b).ok_or(InvalidParameter)` -/
def checkedSub (a b : Amount) : Res Amount := if b ≤ a then .ok (a - b) else .error .invalidParameter

omit E in
/-- `safe_sum_amount(l).ok_or(InvalidParameter)` -/
def safeSumOr (l : List Amount) : Res Amount :=
  match safeSumAmount l with
  | some a => .ok a
  | none => .error .invalidParameter

/-- `proof/transfer.rs:338-439` `from_witness` -/
def TransferPublicInput.fromWitness (w : TransferWitness) (valid_until : U64) :
    Res TransferPublicInput :=
  match w.input_secrets with
  | [] => .error .invalidParameter
  | s0 :: _ =>
    match w.output_ros with
    | [] => .error .invalidParameter
    | o0 :: _ => do
      let input_sum ← safeSumOr
        ((w.input_secrets.filter (fun s => !s.ro.asset_def.isDummy)).map (·.ro.amount))
      let output_sum ← safeSumOr (w.output_ros.map (·.amount))
      let fee ← checkedSub input_sum output_sum
      let memo ← ViewableMemo.newForTransferNote (w.input_secrets.map (·.ro)) w.output_ros
        (w.input_secrets.map (·.cred)) w.enc_rand
      .ok { merkle_root := s0.acc.root, native_asset_code := o0.asset_def.code, valid_until, fee,
            input_nullifiers := w.input_secrets.map InputSecret.nullifier,
            output_commitments := w.output_ros.map RecordOpening.commitment, viewing_memo := memo }

/-! ### Mint (`proof/mint.rs`) -/

/-- `proof/mint.rs:143-152` -/
structure MintWitness where
  minter_keypair : UserKeyPair
  acc : AccMemberWitness
  fee_ro : RecordOpening
  mint_ro : RecordOpening
  chg_ro : RecordOpening
  ac_seed : F
  ac_digest : F
  enc_rand : Fr

/-- `proof/mint.rs:183-206` -/
structure MintPublicInput where
  merkle_root : F
  native_asset_code : AssetCode
  input_nullifier : F
  fee : Amount
  mint_rc : F
  chg_rc : F
  mint_amount : Amount
  mint_ac : AssetCode
  mint_internal_ac : F
  mint_policy : AssetPolicy
  viewing_memo : ViewableMemo
deriving DecidableEq

/-- `circuit/mint.rs:176-205` `MintWitnessVar::new` -/
def MintWitness.toV (w : MintWitness) : MintWit :=
  ⟨w.mint_ro.toV, frToFq w.minter_keypair.sk, w.fee_ro.toV, w.acc.toV, w.chg_ro.toV, w.ac_seed, w.ac_digest,
   frToFq w.enc_rand⟩

/-- `circuit/mint.rs:227-258` `MintPubInputVar::new` -/
def MintPublicInput.toV (p : MintPublicInput) : MintPub :=
  ⟨p.merkle_root, p.native_asset_code, p.input_nullifier, Amount.toF p.fee, p.mint_rc, p.chg_rc,
   Amount.toF p.mint_amount, p.mint_ac, p.mint_internal_ac, p.mint_policy.toV, p.viewing_memo.toV⟩

/-- `proof/mint.rs:262-277` -/
def MintPublicInput.toScalars (p : MintPublicInput) : List F :=
  [p.merkle_root, p.native_asset_code, p.input_nullifier, Amount.toF p.fee, p.mint_rc, p.chg_rc,
   Amount.toF p.mint_amount, p.mint_ac, p.mint_internal_ac] ++ p.mint_policy.toScalars ++
    p.viewing_memo.toScalars

/-- `proof/mint.rs:210-256` `from_witness` -/
def MintPublicInput.fromWitness (w : MintWitness) : Res MintPublicInput :=
  if w.fee_ro.amount < w.chg_ro.amount then .error .invalidParameter
  else if w.chg_ro.asset_def ≠ AssetDefinition.native then .error .invalidParameter
  else if w.fee_ro.asset_def ≠ AssetDefinition.native then .error .invalidParameter
  else
    let mint_internal_ac := internalCode w.ac_seed w.ac_digest
    .ok { merkle_root := w.acc.root, native_asset_code := nativeCode,
          input_nullifier := w.minter_keypair.nullify w.fee_ro.asset_def.policy.freezer_pk w.acc.uid
            w.fee_ro.commitment,
          fee := w.fee_ro.amount - w.chg_ro.amount, mint_rc := w.mint_ro.commitment,
          chg_rc := w.chg_ro.commitment, mint_amount := w.mint_ro.amount,
          mint_ac := domesticFromInternal mint_internal_ac, mint_internal_ac,
          mint_policy := w.mint_ro.asset_def.policy,
          viewing_memo := ViewableMemo.newForMintNote w.mint_ro w.enc_rand }

/-! ### Freeze (`proof/freeze.rs`) -/

/-- `proof/freeze.rs:182-188` -/
structure FreezeWitness where
  input_ros : List RecordOpening
  accs : List AccMemberWitness
  output_ros : List RecordOpening
  fee_keypair : UserKeyPair
  freezing_keypairs : List FreezerKeyPair

/-- `proof/freeze.rs:247-258` -/
structure FreezePublicInput where
  merkle_root : F
  native_asset_code : AssetCode
  fee : Amount
  input_nullifiers : List F
  output_commitments : List F
deriving DecidableEq

/-- `proof/freeze.rs:218-242` `new_unchecked` -/
def FreezeWitness.newUnchecked (inputs : List FreezeNoteInput) (output_ros : List RecordOpening)
    (fee : TxnFeeInfo) : FreezeWitness :=
  ⟨fee.fee_input.ro :: inputs.map (·.ro), fee.fee_input.acc :: inputs.map (·.acc),
   fee.fee_chg_ro :: output_ros, fee.fee_input.owner_keypair, inputs.map (·.keypair)⟩

/-- the closure of `proof/freeze.rs:300-310` for `i > 0` -/
def freezeNullifier (k : FreezerKeyPair) (ro : RecordOpening) (acc : AccMemberWitness) : F :=
  k.nullify ro.pub_key.address acc.uid ro.commitment

/-- the nullifiers at positions `i > 0`, `proof/freeze.rs:291-312`.  The lengths of the lists have been
compared before. -/
def freezeNullifiers : List FreezerKeyPair → List RecordOpening → List AccMemberWitness → List F
  | k :: ks, ro :: ros, a :: as => freezeNullifier k ro a :: freezeNullifiers ks ros as
  | _, _, _ => []

/-- `proof/freeze.rs:262-326` `from_witness` -/
def FreezePublicInput.fromWitness (w : FreezeWitness) : Res FreezePublicInput :=
  if w.input_ros.length ≤ 1 then .error .invalidParameter
  else if w.input_ros.length ≠ w.output_ros.length then .error .invalidParameter
  else if w.input_ros.length ≠ w.freezing_keypairs.length + 1 then .error .invalidParameter
  else match w.input_ros, w.output_ros with
    | i0 :: is, o0 :: _ =>
      if i0.amount < o0.amount then .error .invalidParameter
      else if w.input_ros.length ≠ w.accs.length then .error .invalidParameter
      else match w.accs with
        | a0 :: as => .ok
          { merkle_root := a0.root, native_asset_code := nativeCode, fee := i0.amount - o0.amount,
            input_nullifiers := w.fee_keypair.nullify 0 a0.uid i0.commitment ::
              freezeNullifiers w.freezing_keypairs is as,
            output_commitments := w.output_ros.map RecordOpening.commitment }
        | [] => .error .panic
    | _, _ => .error .panic

/-- The freezing inputs and outputs as the circuit pairs them (`circuit/freeze.rs:98-172`) -/
def freezeInputsV : List RecordOpening → List AccMemberWitness → List FreezerKeyPair → List RecordOpening →
    List FreezeInputV
  | ro :: ros, a :: as, k :: ks, o :: os => ⟨ro.toV, a.toV, frToFq k.sec_key, o.toV⟩ :: freezeInputsV ros as ks os
  | _, _, _, _ => []

/-- `circuit/freeze.rs:192-229` `FreezeWitnessVar::new`; `none` stands for the panic of the indexing
`input_ros[0]` etc. (`circuit/freeze.rs:83-84`), which `from_witness` excludes -/
def FreezeWitness.toV (w : FreezeWitness) : Option FreezeWit :=
  match w.input_ros, w.accs, w.output_ros with
  | i0 :: is, a0 :: as, o0 :: os =>
    some ⟨i0.toV, a0.toV, frToFq w.fee_keypair.sk, o0.toV, freezeInputsV is as w.freezing_keypairs os⟩
  | _, _, _ => none

/-- `circuit/freeze.rs:242-270` `FreezePubInputVar::new` -/
def FreezePublicInput.toV (p : FreezePublicInput) : Option FreezePub :=
  match p.input_nullifiers, p.output_commitments with
  | n0 :: ns, c0 :: cs => some ⟨p.merkle_root, p.native_asset_code, Amount.toF p.fee, n0, ns, c0, cs⟩
  | _, _ => none

/-- `proof/freeze.rs:331-344` -/
def FreezePublicInput.toScalars (p : FreezePublicInput) : List F :=
  [p.merkle_root, p.native_asset_code, Amount.toF p.fee] ++ p.input_nullifiers ++ p.output_commitments

/-- `circuit/freeze.rs:55-66`: every freezing output has the flag of its input flipped -/
def freezeFlagsFlipped : List RecordOpening → List RecordOpening → Bool
  | i :: is, o :: os => decide (i.freeze_flag ≠ o.freeze_flag) && freezeFlagsFlipped is os
  | _, _ => true

/-! ### Keys, `preprocess`, `prove`, `verify` -/

variable [S : CapExt]

/-- `proof/transfer.rs:59-64` -/
structure TransferProvingKey where
  key : S.Pk
  n_inputs : ℕ
  n_outputs : ℕ
  tree_depth : Fin 256

/-- `proof/transfer.rs:86-95` -/
structure TransferVerifyingKey where
  key : S.Vk
  n_inputs : ℕ
  n_outputs : ℕ
  tree_depth : Fin 256

/-- `proof/mint.rs:49-52` -/
structure MintProvingKey where
  key : S.Pk
  tree_depth : Fin 256

/-- `proof/mint.rs:60-63` -/
structure MintVerifyingKey where
  key : S.Vk
  tree_depth : Fin 256

/-- `proof/freeze.rs:48-52` -/
structure FreezeProvingKey where
  key : S.Pk
  tree_depth : Fin 256
  num_input : ℕ

/-- `proof/freeze.rs:71-75` -/
structure FreezeVerifyingKey where
  key : S.Vk
  tree_depth : Fin 256
  num_input : ℕ

/-- `proof/transfer.rs:124-155` `preprocess` (without the number of constraints).  Without inputs or outputs
`from_witness` fails on the dummy witness. -/
def transferPreprocess (n_inputs n_outputs : ℕ) (tree_depth : Fin 256) :
    Res (TransferProvingKey × TransferVerifyingKey) :=
  if n_inputs = 0 ∨ n_outputs = 0 then .error .invalidParameter
  else match S.preprocess (.transfer n_inputs n_outputs tree_depth.val) with
    | none => .error .failedSnark
    | some (pk, vk) => .ok (⟨pk, n_inputs, n_outputs, tree_depth⟩, ⟨vk, n_inputs, n_outputs, tree_depth⟩)

/-- `proof/mint.rs:69-93` `preprocess` -/
def mintPreprocess (tree_depth : Fin 256) : Res (MintProvingKey × MintVerifyingKey) :=
  match S.preprocess (.mint tree_depth.val) with
  | none => .error .failedSnark
  | some (pk, vk) => .ok (⟨pk, tree_depth⟩, ⟨vk, tree_depth⟩)

/-- `proof/freeze.rs:93-121` `preprocess`: `vec![..; num_input - 1]` panics for 0 (subtraction overflow, or
capacity overflow in a release build), `from_witness` fails for 1.  Simplification: a Merkle tree too
small for `num_input` leaves (`proof/freeze.rs:198-201`) is not modelled here; then the code panics, see
`Plonk.freezePreprocessGates` and `C82_preprocess`. -/
def freezePreprocess (num_input : ℕ) (tree_depth : Fin 256) :
    Res (FreezeProvingKey × FreezeVerifyingKey) :=
  if num_input = 0 then .error .panic
  else if num_input ≤ 1 then .error .invalidParameter
  else match S.preprocess (.freeze num_input tree_depth.val) with
    | none => .error .failedSnark
    | some (pk, vk) => .ok (⟨pk, tree_depth, num_input⟩, ⟨vk, tree_depth, num_input⟩)

/-- an optional SNARK result as a `Result` -/
def orFailedSnark {α : Type} : Option α → Res α
  | some a => .ok a
  | none => .error .failedSnark

/-- `proof/transfer.rs:159-188` `prove`: the circuit must build and be satisfied -/
def transferProve (pk : TransferProvingKey) (w : TransferWitness) (p : TransferPublicInput) (ver_key : Pt)
    (extra : List Byte) (seed : ℕ) : Res S.Proof :=
  if TransferSat w.toV p.toV ∧ p.toV.toScalars = p.toScalars then
    orFailedSnark (S.prove pk.key (.transfer w.toV p.toV) (E.verKeyBytes ver_key ++ extra) seed)
  else .error .failedSnark

/-- `proof/transfer.rs:192-212` `verify` -/
def transferVerify (vk : TransferVerifyingKey) (p : TransferPublicInput) (proof : S.Proof) (ver_key : Pt)
    (extra : List Byte) : Res Unit :=
  ensure (S.verify vk.key p.toScalars proof (E.verKeyBytes ver_key ++ extra)) .failedSnark

/-- `proof/mint.rs:97-120` `prove`: building the circuit fails if the memo does not have three blocks
(`circuit/structs.rs:64-68`); satisfiability is not checked -/
def mintProve (pk : MintProvingKey) (w : MintWitness) (p : MintPublicInput) (ver_key : Pt) (seed : ℕ) :
    Res S.Proof :=
  if p.viewing_memo.data.length ≠ 3 then .error .failedSnark
  else orFailedSnark (S.prove pk.key (.mint w.toV p.toV) (E.verKeyBytes ver_key) seed)

/-- `proof/mint.rs:124-140` `verify` -/
def mintVerify (vk : MintVerifyingKey) (p : MintPublicInput) (proof : S.Proof) (ver_key : Pt) : Res Unit :=
  ensure (S.verify vk.key p.toScalars proof (E.verKeyBytes ver_key)) .failedSnark

/-- `proof/freeze.rs:125-158` `prove` -/
def freezeProve (pk : FreezeProvingKey) (w : FreezeWitness) (p : FreezePublicInput) (ver_key : Pt) (seed : ℕ) :
    Res S.Proof :=
  if !freezeFlagsFlipped w.input_ros.tail w.output_ros.tail then .error .failedSnark
  else match w.toV, p.toV with
    | some wv, some pv =>
      if FreezeSat wv pv ∧ pv.toScalars = p.toScalars then
        orFailedSnark (S.prove pk.key (.freeze wv pv) (E.verKeyBytes ver_key) seed)
      else .error .failedSnark
    | _, _ => .error .panic

/-- `proof/freeze.rs:162-178` `verify` -/
def freezeVerify (vk : FreezeVerifyingKey) (p : FreezePublicInput) (proof : S.Proof) (ver_key : Pt) :
    Res Unit :=
  ensure (S.verify vk.key p.toScalars proof (E.verKeyBytes ver_key)) .failedSnark

end Cap
