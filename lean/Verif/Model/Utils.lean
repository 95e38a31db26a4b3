/-
Model of `/repo/src/utils/mod.rs` (`txn_helpers`).
-/
import Verif.Model.Memo

namespace Cap

/-! ### `i128` arithmetic, which the code uses unchecked -/

/-- `x as i128` for a `u128` (never panics) -/
def asI128 (a : Amount) : ℤ := Int.bmod (a.val : ℤ) (2 ^ 128)

/-- the result `x` of an `i128` operation: overflow panics in a debug build and wraps in a release build -/
def i128Res (b : Build) (x : ℤ) : Res ℤ :=
  if -(2 ^ 127) ≤ x ∧ x < 2 ^ 127 then .ok x
  else match b with
    | .debug => .error .panic
    | .release => .ok (Int.bmod x (2 ^ 128))

/-- `x + y` on `i128` -/
def addI128 (b : Build) (x y : ℤ) : Res ℤ := i128Res b (x + y)
/-- `x - y` on `i128` -/
def subI128 (b : Build) (x y : ℤ) : Res ℤ := i128Res b (x - y)
/-- `-x` on `i128` -/
def negI128 (b : Build) (x : ℤ) : Res ℤ := i128Res b (-x)

/-- `x as u128` for an `i128` -/
def asU128 (x : ℤ) : Amount := Fin.ofNat (2 ^ 128) (x % 2 ^ 128).toNat

/-- `x + y` on `u128`, unchecked -/
def addU128 (b : Build) (x y : Amount) : Res Amount :=
  if h : x.val + y.val < 2 ^ 128 then .ok ⟨x.val + y.val, h⟩
  else match b with
    | .debug => .error .panic
    | .release => .ok (x + y)

/-- `iter().sum::<i128>()`, starting from `acc` -/
def sumI128 (b : Build) : ℤ → List ℤ → Res ℤ
  | acc, [] => .ok acc
  | acc, x :: xs => do
    let acc ← addI128 b acc x
    sumI128 b acc xs

/-- the loop of `utils/mod.rs:303-305`: `nullifiers.iter().all(|nf| seen.insert(*nf))` -/
def distinctLoop {α : Type} [DecidableEq α] : List α → List α → Bool
  | _, [] => true
  | seen, x :: xs => if x ∈ seen then false else distinctLoop (x :: seen) xs

variable [E : CapEnv]

/-- `utils/mod.rs:300-311` `check_distinct_input_nullifiers` -/
def checkDistinctInputNullifiers (nls : List F) : Res Unit :=
  if distinctLoop [] nls then .ok () else .error .invalidParameter

/-! ### mint helpers (`utils/mod.rs:313-358`) -/

/-- `utils/mod.rs:322-333` -/
def mintCheckProvingKey (tree_depth : Fin 256) (acc : AccMemberWitness) : Res Unit :=
  ensure (acc.path.length = tree_depth.val) .invalidParameter

/-- `utils/mod.rs:335-345` -/
def mintCheckInputPubKey (ro_fee : RecordOpening) (k : UserKeyPair) : Res Unit :=
  ensure (ro_fee.pub_key = k.pubKey) .invalidParameter

/-- `utils/mod.rs:347-358` -/
def mintCheckAssetCode (ro_mint : RecordOpening) (seed digest : F) : Res Unit :=
  ensure (ro_mint.asset_def.code = domesticFromDigest seed digest) .invalidParameter

/-! ### transfer helpers (`utils/mod.rs:361-520`) -/

/-- `utils/mod.rs:369-396` -/
def transferCheckProvingKey (n_inputs n_outputs : ℕ) (tree_depth : Fin 256)
    (inputs : List TransferNoteInput) (output_len : ℕ) : Res Unit := do
  ensure (n_inputs = inputs.length) .invalidParameter
  ensure (n_outputs = output_len) .invalidParameter
  ensure (inputs.all (fun i => i.acc.path.length = tree_depth.val)) .invalidParameter

/-- `utils/mod.rs:398-411` -/
def transferCheckInputPubKeys (inputs : List TransferNoteInput) : Res Unit :=
  ensure ((inputs.filter (fun i => !i.ro.asset_def.isDummy)).all
    (fun i => i.ro.pub_key = i.owner_keypair.pubKey)) .invalidParameter

/-- `utils/mod.rs:438-444`: the definition being transferred -/
def xfrAssetDef (rest : List RecordOpening) : AssetDefinition :=
  match rest.find? (fun r => r.asset_def ≠ AssetDefinition.dummy) with
  | some r => r.asset_def
  | none => AssetDefinition.native

/-- `utils/mod.rs:420-472` `check_asset_def` -/
def transferCheckAssetDef (inputs outputs : List RecordOpening) : Res Unit :=
  match inputs, outputs with
  | i0 :: is, o0 :: os => do
    ensure (i0.asset_def = AssetDefinition.native) .invalidParameter
    ensure (o0.asset_def = AssetDefinition.native) .invalidParameter
    let xfr := xfrAssetDef is
    ensure (!is.any (fun r => r.asset_def ≠ AssetDefinition.dummy ∧ r.asset_def ≠ xfr)) .invalidParameter
    ensure (!os.any (fun r => r.asset_def ≠ xfr)) .invalidParameter
    ensure (!((i0 :: is) ++ (o0 :: os)).any (fun r =>
      r.asset_def.policy.freezer_pk ≠ 0 ∧ r.asset_def.policy.viewer_pk = 0)) .invalidParameter
  | _, _ => .error .panic

/-- `utils/mod.rs:477-499` `check_and_get_roots` -/
def transferCheckAndGetRoots (inputs : List TransferNoteInput) : Res F :=
  match inputs with
  | [] => .error .internalError
  | i0 :: _ =>
    if (inputs.filter (fun i => !i.ro.isDummy)).any (fun i => i.acc.root ≠ i0.acc.root) then
      .error .invalidParameter
    else .ok i0.acc.root

/-- the body of the loop of `utils/mod.rs:503-519` -/
def transferCheckCred (valid_until : U64) (i : TransferNoteInput) : Res Unit :=
  if i.ro.asset_def.policy.cred_pk ≠ 0 then
    match i.cred with
    | some c => c.verify valid_until
    | none => .error .invalidParameter
  else .ok ()

/-- `utils/mod.rs:503-519` `check_creds` -/
def transferCheckCreds (valid_until : U64) : List TransferNoteInput → Res Unit
  | [] => .ok ()
  | i :: is => do
    transferCheckCred valid_until i
    transferCheckCreds valid_until is

/-! ### freeze helpers (`utils/mod.rs:522-599`) -/

/-- `utils/mod.rs:528-542` -/
def freezeCheckPolicies (inputs : List FreezeNoteInput) : Res Unit :=
  ensure (inputs.all (fun i => !(!i.ro.isDummy && decide (i.ro.asset_def.policy.freezer_pk = 0))))
    .invalidParameter

/-- `utils/mod.rs:545-561` -/
def freezeCheckAndGetRoot (fee : FeeInput) (inputs : List FreezeNoteInput) : Res F :=
  if (inputs.filter (fun i => !i.ro.isDummy)).any (fun i => i.acc.root ≠ fee.acc.root) then
    .error .invalidParameter
  else .ok fee.acc.root

/-- `utils/mod.rs:563-571` -/
def freezeCheckInputsLen (n : ℕ) : Res Unit := ensure (n ≠ 0) .invalidParameter

/-- `utils/mod.rs:572-584`; `num_input`, `tree_depth` of the key first -/
def freezeCheckProvingKey (key_num : ℕ) (key_depth : Fin 256) (num_input : ℕ) (tree_depth : Fin 256) :
    Res Unit :=
  ensure (!(decide (key_num ≠ num_input) || decide (key_depth ≠ tree_depth))) .invalidParameter

/-- `utils/mod.rs:586-599` `get_output_ros`; `blinds i` is the factor drawn for input `i` -/
def freezeGetOutputRos (blinds : ℕ → F) (inputs : List FreezeNoteInput) : List RecordOpening :=
  inputs.mapIdx (fun i x => { x.ro with freeze_flag := x.ro.freeze_flag.flip, blind := blinds i })

/-! ### common helpers -/

/-- `utils/mod.rs:602-648` `check_fee` -/
def checkFee (fee : TxnFeeInfo) : Res Unit := do
  ensure (!decide (fee.fee_amount > fee.fee_input.ro.amount)) .invalidParameter
  ensure (fee.fee_input.ro.amount - fee.fee_amount = fee.fee_chg_ro.amount) .invalidParameter
  ensure fee.fee_input.ro.asset_def.isNative .invalidParameter
  ensure fee.fee_chg_ro.asset_def.isNative .invalidParameter
  ensure (fee.fee_chg_ro.pub_key = fee.fee_input.ro.pub_key) .invalidParameter
  ensure (merkleCheck fee.fee_input.acc fee.fee_input.ro.commitment) .invalidParameter

/-- `utils/mod.rs:671-677`: `is_native_xfr` -/
def isNativeXfr (inputs : List RecordOpening) : Bool :=
  inputs.all (fun i => i.asset_def.isNative || i.asset_def.isDummy)

/-- `utils/mod.rs:679-685`: the fee as an `i128` -/
def deriveFeeI128 (b : Build) (inputs outputs : List RecordOpening) : Res ℤ :=
  if isNativeXfr inputs then do
    let inputs_sum ← sumI128 b 0 (inputs.map (fun x => asI128 x.amount))
    let outputs_sum ← sumI128 b 0 (outputs.map (fun x => asI128 x.amount))
    subI128 b inputs_sum outputs_sum
  else
    match inputs, outputs with
    | i0 :: _, o0 :: _ => subI128 b (asI128 i0.amount) (asI128 o0.amount)
    | _, _ => .error .panic

/-- `utils/mod.rs:664-693` `derive_fee` -/
def deriveFee (b : Build) (inputs outputs : List RecordOpening) : Res Amount := do
  let fee ← deriveFeeI128 b inputs outputs
  if fee < 0 then .error .invalidParameter else .ok (asU128 fee)

/-- `BTreeMap<AssetCode, i128>`: the order of the keys does not matter to this code -/
abbrev Balances := List (AssetCode × ℤ)

/-- `utils/mod.rs:727-732`, `utils/mod.rs:736-741`: apply `upd` to the entry of `code`, or insert the
value `ins` -/
def Balances.update (code : AssetCode) (upd : ℤ → Res ℤ) (ins : Res ℤ) : Balances → Res Balances
  | [] => do
    let v ← ins
    .ok [(code, v)]
  | (c, v) :: rest =>
    if c = code then do
      let v ← upd v
      .ok ((c, v) :: rest)
    else do
      let rest ← Balances.update code upd ins rest
      .ok ((c, v) :: rest)

/-- the loop of `utils/mod.rs:726-733` -/
def Balances.addInputs (b : Build) : List RecordOpening → Balances → Res Balances
  | [], m => .ok m
  | r :: rs, m => do
    let m ← m.update r.asset_def.code (fun x => addI128 b x (asI128 r.amount)) (.ok (asI128 r.amount))
    addInputs b rs m

/-- the loop of `utils/mod.rs:736-742` -/
def Balances.subOutputs (b : Build) : List RecordOpening → Balances → Res Balances
  | [], m => .ok m
  | r :: rs, m => do
    let m ← m.update r.asset_def.code (fun x => subI128 b x (asI128 r.amount))
      (negI128 b (asI128 r.amount))
    subOutputs b rs m

/-- `utils/mod.rs:714-752` `check_asset_amount` -/
def checkAssetAmount (b : Build) (inputs outputs : List RecordOpening) (fee : Amount) : Res Unit :=
  match inputs with
  | [] => .error .panic
  | i0 :: _ => do
    let nf ← negI128 b (asI128 fee)
    let m ← Balances.addInputs b (inputs.filter (fun r => !r.asset_def.isDummy)) [(i0.asset_def.code, nf)]
    let m ← Balances.subOutputs b outputs m
    ensure (m.all (fun x => x.2 = 0)) .invalidParameter

/-- `utils/mod.rs:652-659` `check_balance` -/
def checkBalance (b : Build) (inputs outputs : List RecordOpening) : Res Amount := do
  let fee ← deriveFee b inputs outputs
  checkAssetAmount b inputs outputs fee
  .ok fee

/-- `utils/mod.rs:696-710` `check_unfrozen` -/
def checkUnfrozen (inputs outputs : List RecordOpening) : Res Unit :=
  ensure (!(inputs ++ outputs).any (fun r => r.freeze_flag = .frozen)) .invalidParameter

/-- `utils/mod.rs:756-775` `check_dummy_inputs` -/
def checkDummyInputs (inputs : List RecordOpening) : Res Unit :=
  match inputs with
  | [] => .error .panic
  | i0 :: is => do
    ensure (!i0.isDummy) .invalidParameter
    ensure (!is.any (fun i => i.asset_def.isDummy ∧ i.amount ≠ 0)) .invalidParameter

/-- `utils/mod.rs:778-793` `get_receiver_memos_digest` -/
def getReceiverMemosDigest (memos : List E.AeadCt) : Res F :=
  match memos with
  | [] => .error .internalError
  | _ => .ok (E.hashToField (memos.map E.memoBytes).flatten)

end Cap
