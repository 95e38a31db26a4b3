/-
Model of the functions of `/repo/src/circuit/*.rs` that build the circuits, call by call.

`Model/Circuit/Transfer.lean`, `Mint.lean` and `Freeze.lean` say what the circuits enforce; here is how they come about.
The functions take the values that `RecordOpeningVar::new` etc. give to the variables (`RecordOpening.toV` etc. of
`Model/Proof.lean`).
-/
import Verif.Model.Circuit.Plonk
import Verif.Model.Circuit.Transfer
import Verif.Model.Circuit.Mint
import Verif.Model.Circuit.Freeze

namespace Cap.Plonk

variable [E : CapEnv]

/-! ### `circuit/structs.rs` -/

/-- `circuit/structs.rs:36-42` `ViewableMemoVar::new` -/
def MemoVar.new (m : MemoV) : Prog MemoVar := do
  let ephemeral ← createPoint m.ephemeral
  let symm_ctxts ← collect createVariable m.data
  pure ⟨ephemeral, symm_ctxts⟩

/-- `circuit/structs.rs:45-55` `ViewableMemoVar::set_public` -/
def MemoVar.setPublic (m : MemoVar) : Prog Unit := do
  setVariablePublic m.ephemeral.x
  setVariablePublic m.ephemeral.y
  forEach setVariablePublic m.symm_ctxts

/-- the loop of `circuit/structs.rs:71-79` -/
def checkEqualFrom : BVar → List (Var × Var) → Prog BVar
  | acc, [] => pure acc
  | acc, (left, right) :: l => do
    let flag ← isEqual left right
    let acc ← logicAnd acc flag
    checkEqualFrom acc l

/-- `circuit/structs.rs:59-81` `ViewableMemoVar::check_equal` -/
def MemoVar.checkEqual (m other : MemoVar) : Prog BVar :=
  if other.symm_ctxts.length ≠ m.symm_ctxts.length then .fail
  else do
    let acc ← isPointEqual m.ephemeral other.ephemeral
    checkEqualFrom acc (m.symm_ctxts.zip other.symm_ctxts)

/-- `circuit/structs.rs:84-95` `ViewableMemoVar::derive` -/
def MemoVar.derive (viewer_pk : PVar) (data : List Var) (enc_rand : Var) : Prog MemoVar :=
  elgamalEncrypt viewer_pk data enc_rand

/-- `circuit/structs.rs:196-202` `AssetPolicyVar` -/
structure PolicyVar where
  viewer_pk : PVar
  cred_pk : PVar
  freezer_pk : PVar
  reveal_map : Var
  reveal_threshold : Var

namespace PolicyVar

/-- `circuit/structs.rs:206-224` `AssetPolicyVar::new` -/
def new (p : PolicyV) : Prog PolicyVar := do
  let reveal_map ← createVariable p.reveal_map
  let viewer_pk ← createPoint p.viewer_pk
  let cred_pk ← createPoint p.cred_pk
  let freezer_pk ← createPoint p.freezer_pk
  let reveal_threshold ← createVariable p.reveal_threshold
  pure ⟨viewer_pk, cred_pk, freezer_pk, reveal_map, reveal_threshold⟩

/-- `circuit/structs.rs:229-242` `set_public` -/
def setPublic (p : PolicyVar) : Prog Unit := do
  setVariablePublic p.reveal_map
  setVariablePublic p.viewer_pk.x
  setVariablePublic p.viewer_pk.y
  setVariablePublic p.cred_pk.x
  setVariablePublic p.cred_pk.y
  setVariablePublic p.freezer_pk.x
  setVariablePublic p.freezer_pk.y
  setVariablePublic p.reveal_threshold

/-- `circuit/structs.rs:245-256` `enforce_dummy_policy` -/
def enforceDummy (p : PolicyVar) : Prog Unit := do
  enforcePointEqual p.viewer_pk neutralPoint
  enforcePointEqual p.cred_pk neutralPoint
  enforcePointEqual p.freezer_pk neutralPoint
  enforceConstant p.reveal_map 0
  enforceConstant p.reveal_threshold 0

/-- `circuit/structs.rs:311-316` `is_dummy_cred_pk` -/
def isDummyCredPk (p : PolicyVar) : Prog BVar := isNeutralPoint p.cred_pk
/-- `circuit/structs.rs:320-325` `is_dummy_viewing_pk` -/
def isDummyViewingPk (p : PolicyVar) : Prog BVar := isNeutralPoint p.viewer_pk
/-- `circuit/structs.rs:329-334` `is_dummy_freezer_pk` -/
def isDummyFreezerPk (p : PolicyVar) : Prog BVar := isNeutralPoint p.freezer_pk

/-- `circuit/structs.rs:259-277` `is_dummy_policy` -/
def isDummyPolicy (p : PolicyVar) : Prog BVar := do
  let dummy_viewer ← p.isDummyViewingPk
  let dummy_cred_pk ← p.isDummyCredPk
  let dummy_freezer_pk ← p.isDummyFreezerPk
  let map_plus_threshold ← add p.reveal_map p.reveal_threshold
  let no_map_or_threshold ← isZero map_plus_threshold
  logicAndAll [dummy_viewer, dummy_cred_pk, dummy_freezer_pk, no_map_or_threshold]

/-- `circuit/structs.rs:280-291` `enforce_equal_policy` -/
def enforceEqual (p q : PolicyVar) : Prog Unit := do
  Plonk.enforceEqual p.reveal_map q.reveal_map
  Plonk.enforceEqual p.reveal_threshold q.reveal_threshold
  enforcePointEqual p.viewer_pk q.viewer_pk
  enforcePointEqual p.cred_pk q.cred_pk
  enforcePointEqual p.freezer_pk q.freezer_pk

/-- `circuit/structs.rs:295-307` `check_equal_policy` -/
def checkEqual (p q : PolicyVar) : Prog BVar := do
  let a ← isEqual p.reveal_map q.reveal_map
  let b ← isPointEqual p.viewer_pk q.viewer_pk
  let c ← isPointEqual p.cred_pk q.cred_pk
  let d ← isPointEqual p.freezer_pk q.freezer_pk
  let e ← isEqual p.reveal_threshold q.reveal_threshold
  logicAndAll [a, b, c, d, e]

end PolicyVar

/-- `circuit/structs.rs:108-115` `RecordOpeningVar` -/
structure RecordVar where
  amount : Var
  asset_code : Var
  owner_addr : PVar
  policy : PolicyVar
  freeze_flag : BVar
  blind : Var

namespace RecordVar

/-- `circuit/structs.rs:119-140` `RecordOpeningVar::new` -/
def new (ro : RecordV) : Prog RecordVar := do
  let amount ← createVariable ro.amount
  let asset_code ← createVariable ro.asset_code
  let owner_addr ← createPoint ro.owner_addr
  let policy ← PolicyVar.new ro.policy
  let freeze_flag ← createBoolean ro.freeze_flag
  let blind ← createVariable ro.blind
  pure ⟨amount, asset_code, owner_addr, policy, freeze_flag, blind⟩

/-- `circuit/structs.rs:144-182` `compute_record_commitment` -/
def commitment (ro : RecordVar) : Prog Var := do
  let reveal_and_freeze ← lc ro.policy.reveal_map ro.freeze_flag.v zero zero 2 1 0 0
  commit [ro.amount, ro.asset_code, ro.owner_addr.x, ro.owner_addr.y, ro.policy.viewer_pk.x, ro.policy.viewer_pk.y,
    ro.policy.cred_pk.x, ro.policy.cred_pk.y, ro.policy.freezer_pk.x, ro.policy.freezer_pk.y, reveal_and_freeze,
    ro.policy.reveal_threshold] ro.blind

/-- `circuit/structs.rs:185-192` `check_asset_code_dummy` -/
def isDummy (ro : RecordVar) : Prog BVar := do
  let zero_if_dummy ← addConstant ro.asset_code (-dummyCode)
  isZero zero_if_dummy

end RecordVar

/-- `circuit/structs.rs:353-359` `ExpirableCredVar` -/
structure CredVar where
  attrs : List Var
  expiry : Var
  cred : Var
  user_addr : PVar
  creator_pk : PVar

/-- `circuit/structs.rs:363-385` `ExpirableCredVar::new` -/
def CredVar.new (c : CredV) : Prog CredVar := do
  let expiry ← createVariable c.expiry
  let cred ← createSignature c.cred
  let user_addr ← createPoint c.user_addr
  let creator_pk ← createPoint c.creator_pk
  let attrs ← collect createVariable c.attrs
  pure ⟨attrs, expiry, cred, user_addr, creator_pk⟩

/-- `circuit/structs.rs:397-430` `ExpirableCredVar::verify` -/
def CredVar.verify (c : CredVar) (valid_until : Var) : Prog BVar :=
  if c.attrs.length ≠ ATTRS_LEN then .fail
  else do
    let diff ← sub c.expiry valid_until
    enforceInRange diff MAX_TIMESTAMP_LEN
    checkSignature c.creator_pk ([c.expiry, c.user_addr.x, c.user_addr.y] ++ c.attrs) c.cred

/-! ### `circuit/gadgets_helper.rs` and `circuit/gadgets.rs` -/

/-- `circuit/gadgets_helper.rs:44-50` `derive_internal_asset_code` -/
def deriveInternalAssetCode (seed aux : Var) : Prog Var := evalPrf seed [aux]

/-- `circuit/gadgets_helper.rs:52-59` `derive_user_address` -/
def deriveUserAddress (sk : Var) : Prog PVar := fixedBaseScalarMul sk

/-- `circuit/gadgets_helper.rs:61-73` `derive_nullifier_key` -/
def deriveNullifierKey (sk : Var) (pk : PVar) : Prog Var := do
  let shared ← variableBaseScalarMul sk pk
  let derived ← sponge3 shared.x shared.y zero
  let bit ← isNeutralPoint pk
  conditionalSelect bit derived sk

/-- `circuit/gadgets_helper.rs:75-82` `nullify` -/
def nullify (key uid commitment : Var) : Prog Var := evalPrf key [uid, commitment]

/-- `circuit/gadgets.rs:98-107`: the sum without the first element -/
def sumRest : List Var → Prog Var
  | [_] => pure zero
  | l => sum l.tail

/-- `circuit/gadgets.rs:79-134` `preserve_balance`; the sum of the inputs without the first is returned -/
def preserveBalance (native asset fee : Var) (amounts_in amounts_out : List Var) : Prog Var :=
  match amounts_in, amounts_out with
  | in0 :: _, out0 :: _ => do
    let total_in ← sumRest amounts_in
    let total_out ← sumRest amounts_out
    let amount_diff ← sub total_in total_out
    let native_amount_diff ← lc in0 out0 fee zero 1 (-1) (-1) 1
    let same ← isEqual native asset
    mulAddGate same.v amount_diff same.v native_amount_diff zero 1 1
    mulGate same.v amount_diff amount_diff
    mulGate same.v native_amount_diff native_amount_diff
    pure total_in
  | _, _ => .fail

/-- `circuit/gadgets.rs:136-171` `prove_spend`: nullifier and root -/
def proveSpend (ro : RecordVar) (acc : AccVar) (sk : Var) (spender : Spender) : Prog (Var × Var) := do
  let (pk1, pk2) := if spender = .user then (ro.owner_addr, ro.policy.freezer_pk) else (ro.policy.freezer_pk, ro.owner_addr)
  let pk ← deriveUserAddress sk
  enforcePointEqual pk pk1
  let commitment ← ro.commitment
  let nk ← deriveNullifierKey sk pk2
  let nullifier ← nullify nk acc.uid commitment
  let root ← computeMerkleRoot acc.uid commitment acc.path
  pure (nullifier, root)

/-- `circuit/gadgets.rs:173-188` `hadamard_product` -/
def hadamard (bits vals : List Var) : Prog (List Var) :=
  if bits.length ≠ vals.length then .fail else collect (fun x => mul x.1 x.2) (bits.zip vals)

/-! ### `circuit/transfer.rs` -/

/-- `circuit/transfer.rs:375-380` `InputSecretVar` -/
structure InputVar where
  addr_secret : Var
  ro : RecordVar
  acc : AccVar
  cred : CredVar

/-- `circuit/transfer.rs:384-403` `InputSecretVar::new` -/
def InputVar.new (i : InputV) : Prog InputVar := do
  let addr_secret ← createVariable i.addr_secret
  let ro ← RecordVar.new i.ro
  let cred ← CredVar.new i.cred
  let acc ← AccVar.new i.acc
  pure ⟨addr_secret, ro, acc, cred⟩

/-- `circuit/transfer.rs:289-295` `TransferWitnessVar` -/
structure TransferWitVar where
  asset_code : Var
  policy : PolicyVar
  inputs : List InputVar
  outputs : List RecordVar
  enc_rand : Var

/-- `circuit/transfer.rs:299-325` `TransferWitnessVar::new` -/
def TransferWitVar.new (w : TransferWit) : Prog TransferWitVar := do
  let asset_code ← createVariable w.asset_code
  let policy ← PolicyVar.new w.policy
  let inputs ← collect InputVar.new w.inputs
  let outputs ← collect RecordVar.new w.outputs
  let enc_rand ← createVariable w.enc_rand
  pure ⟨asset_code, policy, inputs, outputs, enc_rand⟩

/-- `circuit/transfer.rs:329-337` `TransferPubInputVar` -/
structure TransferPubVar where
  root : Var
  native_asset_code : Var
  valid_until : Var
  fee : Var
  nullifiers : List Var
  commitments : List Var
  memo : MemoVar

/-- `circuit/transfer.rs:341-371` `TransferPubInputVar::new` -/
def TransferPubVar.new (p : TransferPub) : Prog TransferPubVar := do
  let root ← createPublic p.root
  let native_asset_code ← createPublic p.native_asset_code
  let valid_until ← createPublic p.valid_until
  let fee ← createPublic p.fee
  let nullifiers ← collect createPublic p.nullifiers
  let commitments ← collect createPublic p.commitments
  let memo ← MemoVar.new p.memo
  memo.setPublic
  pure ⟨root, native_asset_code, valid_until, fee, nullifiers, commitments, memo⟩

/-- `circuit/transfer.rs:88-103`: the calls that depend on the position of the input -/
def transferInputPos (w : TransferWitVar) (p : TransferPubVar) (first : Bool) (i : InputVar) (is_dummy not_dummy : BVar) :
    Prog Unit :=
  if first then do
    enforceEqual i.ro.asset_code p.native_asset_code
    i.ro.policy.enforceDummy
  else do
    let is_dummy_policy ← i.ro.policy.isDummyPolicy
    logicOrGate not_dummy is_dummy_policy
    let is_equal_policy ← i.ro.policy.checkEqual w.policy
    logicOrGate is_dummy is_equal_policy

/-- `circuit/transfer.rs:78-124`: the calls for one input -/
def transferInput (w : TransferWitVar) (p : TransferPubVar) (first : Bool) (i : InputVar) (expected_nl : Var) : Prog Unit := do
  enforceConstant i.ro.freeze_flag.v 0
  let is_dummy ← i.ro.isDummy
  let is_zero_amount ← isZero i.ro.amount
  let not_dummy ← logicNeg is_dummy
  logicOrGate not_dummy is_zero_amount
  transferInputPos w p first i is_dummy not_dummy
  let (nullifier, root) ← proveSpend i.ro i.acc i.addr_secret .user
  enforceEqual nullifier expected_nl
  let is_correct_root ← isEqual root p.root
  logicOrGate is_dummy is_correct_root
  let dummy_cred_pk ← i.ro.policy.isDummyCredPk
  let cred_vfy ← i.cred.verify p.valid_until
  logicOrGate dummy_cred_pk cred_vfy

/-- `circuit/transfer.rs:133-155`: the calls for one output -/
def transferOutput (w : TransferWitVar) (p : TransferPubVar) (first : Bool) (o : RecordVar) (expected_rc : Var) : Prog Unit := do
  enforceConstant o.freeze_flag.v 0
  if first then do
    enforceEqual o.asset_code p.native_asset_code
    o.policy.enforceDummy
  else do
    enforceEqual o.asset_code w.asset_code
    o.policy.enforceEqual w.policy
  let rc ← o.commitment
  enforceEqual rc expected_rc
  enforceInRange o.amount AMOUNT_LEN

/-- `.zip(..).enumerate()` with a body that treats the first element differently -/
def forPos {α β : Type} (f : Bool → α → β → Prog Unit) : Bool → List α → List β → Prog Unit
  | b, x :: xs, y :: ys => do
    f b x y
    forPos f false xs ys
  | _, _, _ => pure ()

/-- `circuit/transfer.rs:210-252`: the revealed values of one input -/
def inputMessage (reveal : List BVar) (i : InputVar) : Prog (List Var) := do
  let is_dummy ← i.ro.isDummy
  let addr_x ← conditionalSelect is_dummy i.ro.owner_addr.x neutralPoint.x
  let addr_y ← conditionalSelect is_dummy i.ro.owner_addr.y neutralPoint.y
  let attrs := i.cred.attrs.zip (reveal.drop ASSET_TRACING_MAP_LEN)
  let vals := [addr_x, addr_y, i.ro.amount, i.ro.blind] ++ attrs.map (·.1)
  let bits := reveal.take ASSET_TRACING_MAP_LEN ++ attrs.map (·.2)
  match reveal with
  | [] => .fail
  | reveal0 :: _ => do
    let actual ← logicOr is_dummy reveal0
    let bits := (bits.set 0 actual).set 1 actual
    hadamard (bits.map (·.v)) vals

/-- `circuit/transfer.rs:253-271`: the revealed values of one output -/
def outputMessage (reveal : List BVar) (o : RecordVar) : Prog (List Var) :=
  hadamard ((reveal.take ASSET_TRACING_MAP_LEN).map (·.v)) [o.owner_addr.x, o.owner_addr.y, o.amount, o.blind]

/-- `circuit/transfer.rs:197-285` `is_correct_viewing_memo` -/
def transferCorrectMemo (w : TransferWitVar) (p : TransferPubVar) : Prog BVar := do
  let bits ← unpack w.policy.reveal_map VIEWABLE_DATA_LEN
  let reveal := bits.reverse
  let ins ← collect (inputMessage reveal) w.inputs.tail
  let outs ← collect (outputMessage reveal) w.outputs.tail
  let message := [w.asset_code] ++ ins.flatten ++ outs.flatten
  let derived ← MemoVar.derive w.policy.viewer_pk message w.enc_rand
  p.memo.checkEqual derived

/-- `circuit/transfer.rs:72-188`: the calls after the variables have been made -/
def transferGates (w : TransferWitVar) (p : TransferPubVar) : Prog Unit := do
  forPos (transferInput w p) true w.inputs p.nullifiers
  forPos (transferOutput w p) true w.outputs p.commitments
  let transfer_amount ← preserveBalance p.native_asset_code w.asset_code p.fee (w.inputs.map (·.ro.amount))
    (w.outputs.map (·.amount))
  let amount_diff ← sub w.policy.reveal_threshold transfer_amount
  let under_limit ← isInRange amount_diff AMOUNT_LEN
  let dummy_viewing_pk ← w.policy.isDummyViewingPk
  let under_limit_or_dummy ← logicOr under_limit dummy_viewing_pk
  let correct_memo ← transferCorrectMemo w p
  logicOrGate under_limit_or_dummy correct_memo

/-- `circuit/transfer.rs:53-193` `TransferCircuit::build` -/
def transferBuild (w : TransferWit) (p : TransferPub) : Prog (TransferWitVar × TransferPubVar) :=
  if w.inputs.isEmpty || w.outputs.isEmpty then .fail
  else do
    let wv ← TransferWitVar.new w
    let pv ← TransferPubVar.new p
    transferGates wv pv
    pure (wv, pv)

/-! ### `circuit/mint.rs` -/

/-- `circuit/mint.rs:163-172` `MintWitnessVar` -/
structure MintWitVar where
  mint_ro : RecordVar
  creator_sk : Var
  fee_ro : RecordVar
  acc : AccVar
  chg_ro : RecordVar
  ac_seed : Var
  ac_digest : Var
  enc_rand : Var

/-- `circuit/mint.rs:176-205` `MintWitnessVar::new` -/
def MintWitVar.new (w : MintWit) : Prog MintWitVar := do
  let mint_ro ← RecordVar.new w.mint_ro
  let creator_sk ← createVariable w.creator_sk
  let fee_ro ← RecordVar.new w.fee_ro
  let acc ← AccVar.new w.acc
  let chg_ro ← RecordVar.new w.chg_ro
  let ac_seed ← createVariable w.ac_seed
  let ac_digest ← createVariable w.ac_digest
  let enc_rand ← createVariable w.enc_rand
  pure ⟨mint_ro, creator_sk, fee_ro, acc, chg_ro, ac_seed, ac_digest, enc_rand⟩

/-- `circuit/mint.rs:209-221` `MintPubInputVar` -/
structure MintPubVar where
  root : Var
  native_asset_code : Var
  mint_amount : Var
  mint_ac : Var
  mint_internal_ac : Var
  mint_policy : PolicyVar
  mint_rc : Var
  chg_rc : Var
  fee : Var
  input_nullifier : Var
  memo : MemoVar

/-- `circuit/mint.rs:227-258` `MintPubInputVar::new` -/
def MintPubVar.new (p : MintPub) : Prog MintPubVar := do
  let root ← createPublic p.root
  let native_asset_code ← createPublic p.native_asset_code
  let input_nullifier ← createPublic p.input_nullifier
  let fee ← createPublic p.fee
  let mint_rc ← createPublic p.mint_rc
  let chg_rc ← createPublic p.chg_rc
  let mint_amount ← createPublic p.mint_amount
  let mint_ac ← createPublic p.mint_ac
  let mint_internal_ac ← createPublic p.mint_internal_ac
  let mint_policy ← PolicyVar.new p.mint_policy
  mint_policy.setPublic
  let memo ← MemoVar.new p.memo
  memo.setPublic
  pure ⟨root, native_asset_code, mint_amount, mint_ac, mint_internal_ac, mint_policy, mint_rc, chg_rc, fee, input_nullifier,
    memo⟩

/-- `circuit/mint.rs:135-159` `is_correct_viewing_memo` -/
def mintCorrectMemo (w : MintWitVar) (memo : MemoVar) : Prog BVar := do
  let derived ← MemoVar.derive w.mint_ro.policy.viewer_pk [w.mint_ro.owner_addr.x, w.mint_ro.owner_addr.y, w.mint_ro.blind]
    w.enc_rand
  memo.checkEqual derived

/-- `circuit/mint.rs:55-126`: the calls after the variables have been made -/
def mintGates (w : MintWitVar) (p : MintPubVar) : Prog Unit := do
  let mint_rc ← w.mint_ro.commitment
  enforceEqual mint_rc p.mint_rc
  let chg_rc ← w.chg_ro.commitment
  enforceEqual chg_rc p.chg_rc
  let internal ← deriveInternalAssetCode w.ac_seed w.ac_digest
  enforceEqual internal p.mint_internal_ac
  addGate p.fee w.chg_ro.amount w.fee_ro.amount
  let (nullifier, root) ← proveSpend w.fee_ro w.acc w.creator_sk .user
  enforceEqual root p.root
  enforceEqual nullifier p.input_nullifier
  enforceConstant w.mint_ro.freeze_flag.v 0
  enforceConstant w.fee_ro.freeze_flag.v 0
  enforceConstant w.chg_ro.freeze_flag.v 0
  enforceInRange w.mint_ro.amount AMOUNT_LEN
  enforceEqual w.mint_ro.amount p.mint_amount
  enforceEqual w.mint_ro.asset_code p.mint_ac
  p.mint_policy.enforceEqual w.mint_ro.policy
  enforceEqual w.chg_ro.asset_code p.native_asset_code
  enforceEqual w.fee_ro.asset_code p.native_asset_code
  w.chg_ro.policy.enforceDummy
  w.fee_ro.policy.enforceDummy
  enforcePointEqual w.fee_ro.owner_addr w.chg_ro.owner_addr
  let dummy_viewing_pk ← p.mint_policy.isDummyViewingPk
  let correct_memo ← mintCorrectMemo w p.memo
  logicOrGate dummy_viewing_pk correct_memo

/-- `circuit/mint.rs:47-131` `MintCircuit::build` -/
def mintBuild (w : MintWit) (p : MintPub) : Prog (MintWitVar × MintPubVar) := do
  let wv ← MintWitVar.new w
  let pv ← MintPubVar.new p
  mintGates wv pv
  pure (wv, pv)

/-! ### `circuit/freeze.rs` -/

/-- `circuit/freeze.rs:182-188` `FreezeWitnessVar` -/
structure FreezeWitVar where
  input_ros : List RecordVar
  accs : List AccVar
  output_ros : List RecordVar
  fee_sk : Var
  freezing_sks : List Var

/-- `circuit/freeze.rs:192-228` `FreezeWitnessVar::new` -/
def FreezeWitVar.new (w : FreezeWit) : Prog FreezeWitVar := do
  let input_ros ← collect RecordVar.new (w.fee_ro :: w.inputs.map (·.ro))
  let accs ← collect AccVar.new (w.fee_acc :: w.inputs.map (·.acc))
  let output_ros ← collect RecordVar.new (w.chg_ro :: w.inputs.map (·.out))
  let fee_sk ← createVariable w.fee_sk
  let freezing_sks ← collect createVariable (w.inputs.map (·.sk))
  pure ⟨input_ros, accs, output_ros, fee_sk, freezing_sks⟩

/-- `circuit/freeze.rs:232-238` `FreezePubInputVar` -/
structure FreezePubVar where
  root : Var
  native_asset_code : Var
  fee : Var
  nullifiers : List Var
  commitments : List Var

/-- `circuit/freeze.rs:242-266` `FreezePubInputVar::new` -/
def FreezePubVar.new (p : FreezePub) : Prog FreezePubVar := do
  let root ← createPublic p.root
  let native_asset_code ← createPublic p.native_asset_code
  let fee ← createPublic p.fee
  let nullifiers ← collect createPublic (p.fee_nullifier :: p.nullifiers)
  let commitments ← collect createPublic (p.chg_commitment :: p.commitments)
  pure ⟨root, native_asset_code, fee, nullifiers, commitments⟩

/-- `circuit/freeze.rs:82-107`: the calls for the fee -/
def freezeFee (p : FreezePubVar) (first_input first_output : RecordVar) (acc : AccVar) (fee_sk nullifier0 : Var) :
    Prog Unit := do
  enforceEqual first_input.asset_code p.native_asset_code
  first_input.policy.enforceDummy
  enforceEqual first_output.asset_code p.native_asset_code
  first_output.policy.enforceDummy
  enforceConstant first_input.freeze_flag.v 0
  enforceConstant first_output.freeze_flag.v 0
  addGate first_output.amount p.fee first_input.amount
  let (nullifier, root) ← proveSpend first_input acc fee_sk .user
  enforceEqual root p.root
  enforceEqual nullifier nullifier0

/-- `circuit/freeze.rs:109-129`: one freezing input and its output -/
def freezePair (x : RecordVar × RecordVar) : Prog Unit := do
  addGate x.1.freeze_flag.v x.2.freeze_flag.v one
  enforceEqual x.1.amount x.2.amount
  enforcePointEqual x.1.owner_addr x.2.owner_addr
  enforceEqual x.1.asset_code x.2.asset_code
  x.1.policy.enforceEqual x.2.policy

/-- `circuit/freeze.rs:131-139`: one output commitment -/
def freezeOutput (x : RecordVar × Var) : Prog Unit := do
  let rc ← x.1.commitment
  enforceEqual rc x.2

/-- `circuit/freeze.rs:141-173`: spending one freezing input -/
def freezeSpend (p : FreezePubVar) (x : (RecordVar × AccVar) × Var × Var) : Prog Unit := do
  let dummy_freeze_pk ← x.1.1.policy.isDummyFreezerPk
  let not_dummy_freeze_pk ← logicNeg dummy_freeze_pk
  let is_dummy_ro ← x.1.1.isDummy
  logicOrGate not_dummy_freeze_pk is_dummy_ro
  let (nullifier, root) ← proveSpend x.1.1 x.1.2 x.2.1 .freezer
  let is_correct_root ← isEqual root p.root
  logicOrGate is_correct_root is_dummy_ro
  enforceEqual nullifier x.2.2

/-- `circuit/freeze.rs:82-173`: the calls after the variables have been made.  The indexing `[0]` panics on an empty list;
here this is a failure. -/
def freezeGates (w : FreezeWitVar) (p : FreezePubVar) : Prog Unit :=
  match w.input_ros, w.output_ros, w.accs, p.nullifiers with
  | i0 :: _, o0 :: _, a0 :: _, n0 :: _ => do
    freezeFee p i0 o0 a0 w.fee_sk n0
    forEach freezePair (w.input_ros.tail.zip w.output_ros.tail)
    forEach freezeOutput (w.output_ros.zip p.commitments)
    forEach (freezeSpend p) ((w.input_ros.tail.zip w.accs.tail).zip (w.freezing_sks.zip p.nullifiers.tail))
  | _, _, _, _ => .fail

/-- `circuit/freeze.rs:74-178` `FreezeCircuit::build_unchecked` -/
def freezeBuild (w : FreezeWit) (p : FreezePub) : Prog (FreezeWitVar × FreezePubVar) := do
  let wv ← FreezeWitVar.new w
  let pv ← FreezePubVar.new p
  freezeGates wv pv
  pure (wv, pv)

end Cap.Plonk
