/-
Model of the memo functions of `/repo/src/structs.rs` (viewing memos, receiver memos, fee info) and
`/repo/src/keys.rs` (opening viewing memos).
-/
import Verif.Model.Notes

namespace Cap

variable [E : CapEnv]

/-- one step of the fold of `utils/mod.rs:73-78`: `acc?.checked_add(elem)` -/
def addChecked (acc : Option Amount) (e : Amount) : Option Amount :=
  match acc with
  | none => none
  | some a => if h : a.val + e.val < 2 ^ 128 then some ⟨a.val + e.val, h⟩ else none

omit E in
/-- `utils/mod.rs:73-78` `safe_sum_amount` -/
def safeSumAmount (l : List Amount) : Option Amount := l.foldl addChecked (some 0)

/-- `utils/mod.rs:36-57` `get_asset_def_in_transfer_txn` -/
def getAssetDefInTransferTxn : List RecordOpening → Res AssetDefinition
  | [] => .error .internalError
  | r0 :: rest =>
    if !r0.asset_def.isNative then .error .internalError
    else match rest.find? (fun r => !r.asset_def.isDummy) with
      | some r => .ok r.asset_def
      | none => .ok r0.asset_def

/-- `structs.rs:1285-1297` `ViewableMemo::new_for_mint_note` -/
def ViewableMemo.newForMintNote (ro : RecordOpening) (rand : Fr) : ViewableMemo :=
  let viewer_pk := ro.asset_def.policy.viewer_pk
  let msg := if viewer_pk = 0 then [0, 0, 0]
    else [ptX ro.pub_key.address, ptY ro.pub_key.address, ro.blind]
  viewerEncrypt viewer_pk rand msg

/-- `structs.rs:1330-1362`: the part of the message for one input.  `copy_from_slice` panics when the
credential does not have 8 attributes. -/
def memoInput (m : RevealMap) (ro : RecordOpening) (cred : ExpirableCredential) : Res (List F) :=
  if cred.attrs.length ≠ ATTRS_LEN then .error .panic
  else do
    let vals := [ptX ro.pub_key.address, ptY ro.pub_key.address, Amount.toF ro.amount, ro.blind] ++ cred.attrs
    let rv ← m.hadamard vals
    if ro.isDummy then
      match rv with
      | _ :: _ :: rest => .ok (ptX (0 : Pt) :: ptY (0 : Pt) :: rest)
      | _ => .error .panic
    else .ok rv

/-- `structs.rs:1365-1382`: the part of the message for one output; uses the output's own reveal map -/
def memoOutput (ro : RecordOpening) : Res (List F) :=
  ro.asset_def.policy.reveal_map.hadamard
    [ptX ro.pub_key.address, ptY ro.pub_key.address, Amount.toF ro.amount, ro.blind]

/-- `structs.rs:1397-1415` `dummy_for_transfer_note`.  `usize` subtraction from 0 panics (simplification:
also in a release build, where it would wrap; the only caller never passes 0). -/
def ViewableMemo.dummyForTransferNote (n_in n_out : ℕ) (rand : Fr) : Res ViewableMemo :=
  if n_in = 0 ∨ n_out = 0 then .error .panic
  else .ok (viewerEncrypt (E.randViewerPk rand) rand
    (List.replicate ((n_in - 1) * VIEWABLE_DATA_LEN + (n_out - 1) * 4 + 1) 0))

/-- `structs.rs:1312-1321`: the amount that is compared with the threshold -/
def memoTransferAmount (ins : List RecordOpening) : Option Amount :=
  safeSumAmount ((ins.tail.filter (fun r => !r.asset_def.isDummy)).map (·.amount))

/-- `structs.rs:1328-1382`: the message encrypted to the viewer -/
def memoMessage (ad : AssetDefinition) (ins outs : List RecordOpening) (creds : List ExpirableCredential) :
    Res (List F) := do
  let a ← (ins.zip creds).tail.mapM (fun x => memoInput ad.policy.reveal_map x.1 x.2)
  let b ← outs.tail.mapM memoOutput
  .ok ([ad.code] ++ a.flatten ++ b.flatten)

/-- `structs.rs:1300-1390` `ViewableMemo::new_for_transfer_note` -/
def ViewableMemo.newForTransferNote (ins outs : List RecordOpening) (creds : List ExpirableCredential)
    (rand : Fr) : Res ViewableMemo := do
  let ad ← getAssetDefInTransferTxn ins
  if ad.isDummy then .error .internalError
  else match memoTransferAmount ins with
    | none => .error .invalidParameter
    | some amt =>
      if ad.policy.viewer_pk ≠ 0 ∧ ad.policy.reveal_threshold < amt then do
        let msg ← memoMessage ad ins outs creds
        .ok (viewerEncrypt ad.policy.viewer_pk rand msg)
      else ViewableMemo.dummyForTransferNote ins.length outs.length rand

/-! ### Opening viewing memos -/

/-- `structs.rs:1425-1436` -/
structure ViewableData where
  asset_code : AssetCode
  user_address : Option Pt
  amount : Option Amount
  blinding_factor : Option F
  attributes : List (Option IdentityAttribute)
deriving DecidableEq

/-- `structs.rs:1438-1441` -/
inductive InOrOut where
  | input
  | output
deriving DecidableEq

namespace ViewableData

/-- `structs.rs:1444-1472` -/
def fetchAddress (x y : F) (ad : AssetDefinition) : Res (Option Pt) :=
  match E.ofXY (x, y) with
  | none => if ad.policy.reveal_map.isUserAddressRevealed then .error .failedViewableMemoDecryption else .ok none
  | some P => if ad.policy.isUserAddressRevealed ∨ P = 0 then .ok (some P) else .ok none

/-- `structs.rs:1474-1487` -/
def fetchBlindFactor (v : F) (ad : AssetDefinition) : Option F :=
  if ad.policy.reveal_map.isBlindingFactorRevealed then some v else none

/-- `structs.rs:1542-1561` -/
def fetchAmount (v : F) (ad : AssetDefinition) : Res (Option Amount) :=
  if ad.policy.isAmountRevealed then
    if v.val > 2 ^ 128 - 1 then .error .failedViewableMemoDecryption
    else .ok (some (Fin.ofNat (2 ^ 128) (ofLe ((leBytes 32 v.val).take 16))))
  else .ok none

/-- `structs.rs:1568-1578`, from attribute `i` on -/
def fetchAttrs (ad : AssetDefinition) : ℕ → List F → Res (List (Option IdentityAttribute))
  | _, [] => .ok []
  | i, a :: as => do
    let b ← ad.policy.reveal_map.isIthAttributeRevealed i
    let rest ← fetchAttrs ad (i + 1) as
    .ok ((if b then some a else none) :: rest)

/-- `structs.rs:1515-1590` `from_xfr_data_and_asset` -/
def fromXfrDataAndAsset (ad : AssetDefinition) (data : List F) (io : InOrOut) : Res ViewableData :=
  let expected := match io with
    | .input => VIEWABLE_DATA_LEN
    | .output => 4
  if data.length ≠ expected then .error .failedViewableMemoDecryption
  else match data with
    | x :: y :: am :: bl :: attrs => do
      let user_address ← fetchAddress x y ad
      let amount ← fetchAmount am ad
      let blinding_factor := fetchBlindFactor bl ad
      let attributes ← match io with
        | .input => fetchAttrs ad 0 attrs
        | .output => .ok (List.replicate ATTRS_LEN none)
      .ok { asset_code := ad.code, user_address, amount, blinding_factor, attributes }
    | _ => .error .panic

end ViewableData

/-- the loop of `keys.rs:411-421` over the inputs: `n` chunks of 12; returns what it pushed and what is
left of the plaintext.  A slice out of range panics. -/
def openInputs (ad : AssetDefinition) : ℕ → List F → Res (List ViewableData × List F)
  | 0, pt => .ok ([], pt)
  | n + 1, pt =>
    if pt.length < VIEWABLE_DATA_LEN then .error .panic
    else do
      let vd ← ViewableData.fromXfrDataAndAsset ad (pt.take VIEWABLE_DATA_LEN) .input
      let (vs, rest) ← openInputs ad n (pt.drop VIEWABLE_DATA_LEN)
      .ok (if vd.user_address = none ∨ vd.user_address ≠ some 0 then vd :: vs else vs, rest)

/-- the loop of `keys.rs:424-432` over the outputs: `n` chunks of 4 -/
def openOutputs (ad : AssetDefinition) : ℕ → List F → Res (List ViewableData)
  | 0, _ => .ok []
  | n + 1, pt =>
    if pt.length < 4 then .error .panic
    else do
      let vd ← ViewableData.fromXfrDataAndAsset ad (pt.take 4) .output
      let vs ← openOutputs ad n (pt.drop 4)
      .ok (vd :: vs)

variable [S : CapExt]

/-- `structs.rs:1489-1514` `from_mint_note` -/
def ViewableData.fromMintNote (data : List F) (note : MintNote) : Res ViewableData :=
  match data with
  | [x, y, b] => do
    let user_address ← fetchAddress x y note.mint_asset_def
    let amount :=
      if note.mint_asset_def.policy.reveal_map.isAmountRevealed then some note.mint_amount else none
    .ok { asset_code := note.mint_asset_def.code, user_address, amount,
          blinding_factor := fetchBlindFactor b note.mint_asset_def, attributes := [] }
  | _ => .error .failedViewableMemoDecryption

omit E S in
/-- `len - 1` on `usize` (`keys.rs:390-391`) -/
def usizePred (b : Build) (len : ℕ) : Res ℕ :=
  match len, b with
  | n + 1, _ => .ok n
  | 0, .debug => .error .panic
  | 0, .release => .ok (2 ^ 64 - 1)

omit E S in
/-- `keys.rs:394` `expected_len` on `usize`.  Products of real vector lengths stay below `2^64`, so only a
wrapped `n_inputs` or `n_outputs` makes the sum wrap. -/
def memoExpectedLen (n_inputs n_outputs : ℕ) : ℕ :=
  if n_inputs = 2 ^ 64 - 1 ∨ n_outputs = 2 ^ 64 - 1 then
    (1 + n_inputs * VIEWABLE_DATA_LEN + n_outputs * 4) % 2 ^ 64
  else 1 + n_inputs * VIEWABLE_DATA_LEN + n_outputs * 4

/-- `keys.rs:379-434` `open_transfer_viewing_memo` -/
def ViewerKeyPair.openTransferViewingMemo (k : ViewerKeyPair) (b : Build) (ad : AssetDefinition)
    (note : TransferNote) : Res (List ViewableData × List ViewableData) :=
  if k.pubKey ≠ ad.policy.viewer_pk then .error .invalidParameter
  else do
    let n_inputs ← usizePred b note.inputs_nullifiers.length
    let n_outputs ← usizePred b note.output_commitments.length
    let plaintext := k.decrypt note.viewing_memo
    if plaintext.length ≠ memoExpectedLen n_inputs n_outputs then
      .error .failedViewableMemoDecryption
    else match plaintext with
      | [] => .error .panic
      | code :: rest =>
        if ad.code ≠ code then .error .failedViewableMemoDecryption
        else do
          let (ins, rest) ← openInputs ad n_inputs rest
          let outs ← openOutputs ad n_outputs rest
          .ok (ins, outs)

/-- `keys.rs:437-451` `open_mint_viewing_memo` -/
def ViewerKeyPair.openMintViewingMemo (k : ViewerKeyPair) (note : MintNote) : Res ViewableData :=
  let plaintext := k.decrypt note.viewing_memo
  if plaintext.length ≠ 3 then .error .failedViewableMemoDecryption
  else ViewableData.fromMintNote plaintext note

/-! ### Receiver memos -/

/-- `structs.rs:1605-1617` `ReceiverMemo::from_ro`; a `ReceiverMemo` is an AEAD ciphertext -/
def ReceiverMemo.fromRo (rand : ℕ) (ro : RecordOpening) (label : List Byte) : Res E.AeadCt :=
  match S.roBytes ro with
  | none => .error .deserializationError
  | some b =>
    match E.aeadEnc ro.pub_key.enc_key rand b label with
    | none => .error .failedPrimitives
    | some c => .ok c

/-- `structs.rs:1624-1653` `ReceiverMemo::decrypt` -/
def ReceiverMemo.decrypt (c : E.AeadCt) (k : UserKeyPair) (rc : F) (label : List Byte) :
    Res RecordOpening :=
  match E.aeadDec k.encSk c label with
  | none => .error .failedPrimitives
  | some b =>
    match S.roParse b with
    | none => .error .deserializationError
    | some ro =>
      if ro.pub_key ≠ k.pubKey then .error .internalError
      else if ro.commitment ≠ rc then .error .invalidParameter
      else .ok ro

omit S in
/-- `structs.rs:1692-1717` `TxnFeeInfo::new`; `blind` is the factor `RecordOpening::new` draws.  Also
returns the change record, as the Rust function does. -/
def TxnFeeInfo.new (blind : F) (fi : FeeInput) (fee : Amount) : Res (TxnFeeInfo × RecordOpening) :=
  if fi.ro.amount < fee then .error .invalidParameter
  else
    let chg : RecordOpening :=
      { amount := fi.ro.amount - fee, asset_def := AssetDefinition.native, pub_key := fi.ro.pub_key,
        freeze_flag := .unfrozen, blind }
    .ok (⟨fi, fee, chg⟩, chg)

end Cap
