/-
Model of `/repo/src/utils/params_builder.rs`: the builders that make up records, put them into a Merkle tree and build a note
that spends them, and `TxnsParams::generate_txns`, which does this for a whole list of transactions.

Everything that is drawn at random is a parameter.  Failing assertions, `unwrap` of an error and indices out of range are
`panic`.  Left out: the functions that are not used by `generate_txns` or by the public ones (they change one field of a
builder, or build a witness for a test of a circuit), and `tree_depth = None`, which is in
`Model/Depth.lean`.
-/
import Verif.Model.Wallet

namespace Cap

variable [E : CapEnv]

/-- The tree of `MerkleTree::new(depth).unwrap()` and a `push` for each of these leaves; as in `Model/Ledger.lean` a tree is
represented by its leaves. -/
def treeOf (d : ℕ) (leaves : List F) : Res LedgerState := LedgerState.insertRecords d ⟨[], [], []⟩ leaves

/-- `lookup_from_tree` for the leaves from `offset` on, so many of them -/
def lookupFrom (d : ℕ) (tree : LedgerState) : ℕ → ℕ → Res (List AccMemberWitness)
  | _, 0 => .ok []
  | offset, n + 1 => do
    let a ← Wallet.lookupFromTree d tree (Fin.ofNat (2 ^ 64) offset)
    let l ← lookupFrom d tree (offset + 1) n
    .ok (a :: l)

/-! ### Transfers -/

/-- `params_builder.rs:905-910` `NonNativeAssetDefinition` -/
structure NonNativeAsset where
  asset_def : AssetDefinition
  viewer : ViewerKeyPair
  /-- the secret key of `minter_keypair`, which issues credentials -/
  minter : Fr
  freezer : FreezerKeyPair

/-- `params_builder.rs:913-930` `generate`; the keys and the seed of `AssetCode::random` are drawn -/
def NonNativeAsset.generate (viewer : ViewerKeyPair) (minter freezer : Fr) (seed : F) : Res NonNativeAsset := do
  let policy := ((AssetPolicy.default.setViewerPubKey viewer.pubKey).setCredCreatorPubKey (smulFr minter E.gen)).setFreezerPubKey
    (FreezerKeyPair.generate freezer).pub_key
  let asset_def ← unwrapRes (AssetDefinition.new (newDomestic seed []) policy)
  .ok ⟨asset_def, viewer, minter, FreezerKeyPair.generate freezer⟩

/-- `params_builder.rs:288-307` `TransferParamsBuilder`, without the generator of random numbers -/
structure TransferBuilder where
  num_input : ℕ
  num_output : ℕ
  tree_depth : Fin 256
  asset : Option NonNativeAsset
  input_ros : List RecordOpening
  output_ros : List RecordOpening
  fee_chg_ro : RecordOpening
  input_keypairs : List UserKeyPair
  input_creds : List (Option ExpirableCredential)
  accs : List AccMemberWitness
  root : F

namespace TransferBuilder

/-- `RecordOpening::default()` with the encryption key of `UserPubKey::default()` -/
def defaultRecord : RecordOpening := ⟨0, ⟨0, AssetPolicy.default⟩, ⟨0, E.aeadPkDefault⟩, .unfrozen, 0⟩

/-- `params_builder.rs:883-896` `calculate_tree_depth` with a given depth.  `3usize.pow` panics from 3^41 on in a debug
build; here always. -/
def calculateTreeDepth (num_input num_output : ℕ) (depth : Fin 256) : Res (Fin 256) := do
  ensure (decide (num_input ≠ 0)) .panic
  ensure (decide (num_output ≠ 0)) .panic
  ensure (decide (3 ^ depth.val < 2 ^ 64)) .panic
  ensure (decide (num_input + num_output ≤ 3 ^ depth.val)) .panic
  .ok depth

/-- `params_builder.rs:310-332` `new_native` (no asset), `339-364` `new_non_native`; the definition of the asset is drawn -/
def new (num_input num_output : ℕ) (depth : Fin 256) (user_keypairs : List UserKeyPair) (asset : Option NonNativeAsset) :
    Res TransferBuilder := do
  ensure (decide (user_keypairs.length = num_input)) .panic
  let tree_depth ← calculateTreeDepth num_input num_output depth
  .ok ⟨num_input, num_output, tree_depth, asset, [], [], defaultRecord, user_keypairs, List.replicate num_input none,
    List.replicate num_input ⟨[], 0, 0⟩, 0⟩

/-- `params_builder.rs:898-901` `input_upk_at` -/
def inputUpkAt (t : TransferBuilder) (i : ℕ) : Res UserPubKey :=
  match t.input_keypairs[i]? with
  | some k => .ok k.pubKey
  | none => .error .panic

/-- the definition of the records that are moved -/
def assetDef (t : TransferBuilder) : AssetDefinition :=
  match t.asset with
  | some a => a.asset_def
  | none => AssetDefinition.native

/-- `params_builder.rs:601-625` `update_acc_member_witness`, with the positions from `offset` on -/
def updateAccMemberWitness (t : TransferBuilder) (tree : LedgerState) (offset : ℕ) : Res TransferBuilder := do
  let found ← lookupFrom t.tree_depth.val tree offset t.input_ros.length
  ensure (decide (found.length ≤ t.accs.length)) .panic
  .ok { t with accs := found ++ t.accs.drop found.length, root := treeRoot t.tree_depth.val tree.leaves }

/-- `params_builder.rs:590-597` `refresh_merkle_root` -/
def refreshMerkleRoot (t : TransferBuilder) : Res TransferBuilder := do
  let tree ← treeOf t.tree_depth.val (t.input_ros.map RecordOpening.commitment)
  t.updateAccMemberWitness tree 0

/-- the loop of `params_builder.rs:500-519`, from input `i + 1` on; `blinds` are the factors that are drawn -/
def inputRecords (t : TransferBuilder) (blinds : ℕ → F) : ℕ → List Amount → Res (List RecordOpening)
  | _, [] => .ok []
  | i, a :: rest => do
    let pk ← t.inputUpkAt (i + 1)
    let ros ← inputRecords t blinds (i + 1) rest
    .ok (⟨a, t.assetDef, pk, .unfrozen, blinds (i + 1)⟩ :: ros)

/-- `params_builder.rs:483-521` `set_input_amounts`; `blinds 0` is the factor of the fee record -/
def setInputAmounts (t : TransferBuilder) (blinds : ℕ → F) (fee_input : Amount) (amounts : List Amount) :
    Res TransferBuilder := do
  ensure (decide (t.input_ros.length = 0)) .panic
  ensure (decide (amounts.length + 1 = t.num_input)) .panic
  let pk ← t.inputUpkAt 0
  let ros ← t.inputRecords blinds 0 amounts
  refreshMerkleRoot { t with input_ros := ⟨fee_input, AssetDefinition.native, pk, .unfrozen, blinds 0⟩ :: ros }

/-- the loop of `params_builder.rs:543-562`; the keys of the receivers are drawn, too -/
def outputRecords (t : TransferBuilder) (receivers : ℕ → UserPubKey) (blinds : ℕ → F) (amounts : List Amount) :
    List RecordOpening :=
  amounts.mapIdx (fun i a => ⟨a, t.assetDef, receivers i, .unfrozen, blinds (i + 1)⟩)

/-- `params_builder.rs:526-564` `set_output_amounts`; `blinds 0` is the factor of the change of the fee -/
def setOutputAmounts (t : TransferBuilder) (receivers : ℕ → UserPubKey) (blinds : ℕ → F) (fee_chg : Amount)
    (amounts : List Amount) : Res TransferBuilder := do
  ensure (decide (t.output_ros.length = 0)) .panic
  ensure (decide (amounts.length + 1 = t.num_output)) .panic
  let pk ← t.inputUpkAt 0
  .ok { t with
    fee_chg_ro := ⟨fee_chg, AssetDefinition.native, pk, .unfrozen, blinds 0⟩
    output_ros := t.outputRecords receivers blinds amounts }

/-- the loop of `params_builder.rs:569-586`, for the inputs `i`, `i + 1`, …; `attrs` are the attributes that are drawn -/
def creds (t : TransferBuilder) (attrs : ℕ → List IdentityAttribute) (expiry : U64) :
    ℕ → List RecordOpening → Res (List (Option ExpirableCredential))
  | _, [] => .ok []
  | i, ro :: ros => do
    let cred ←
      if ro.asset_def.policy.cred_pk = 0 then .ok none
      else match t.asset with
        | none => .error .panic
        | some a => do
          let pk ← t.inputUpkAt i
          let c ← unwrapRes (ExpirableCredential.create pk.address (attrs i) expiry a.minter)
          .ok (some c)
    let cs ← creds t attrs expiry (i + 1) ros
    .ok (cred :: cs)

/-- `params_builder.rs:568-588` `set_input_creds` -/
def setInputCreds (t : TransferBuilder) (attrs : ℕ → List IdentityAttribute) (expiry : U64) : Res TransferBuilder := do
  ensure (decide (t.input_ros.length = t.num_input)) .panic
  let cs ← t.creds attrs expiry 0 t.input_ros
  .ok { t with input_creds := cs }

/-- `params_builder.rs:726-734` `len_check` -/
def lenCheck (t : TransferBuilder) : Res Unit :=
  ensure (decide (t.input_ros.length = t.num_input ∧ t.accs.length = t.num_input ∧ t.input_keypairs.length = t.num_input ∧
    t.input_creds.length = t.num_input)) .panic

/-- the inputs, as in `params_builder.rs:796-803`, `850-858` -/
def inputs (t : TransferBuilder) : List TransferNoteInput :=
  (t.input_ros.zip (t.accs.zip (t.input_keypairs.zip t.input_creds))).map (fun x => ⟨x.1, x.2.1, x.2.2.1, x.2.2.2⟩)

variable [S : CapExt]

/-- What is drawn while a note is built. -/
structure Draw where
  chg_blind : F
  note : TransferRand
  memos : ℕ → ℕ

omit E S in
/-- `-` on amounts: a debug build panics where a release build wraps -/
def subU128 (b : Build) (x y : Amount) : Res Amount :=
  if y ≤ x then .ok (x - y)
  else match b with
    | .debug => .error .panic
    | .release => .ok (x - y)

/-- the memos and their signature, `params_builder.rs:814-821`, `870-877` -/
def finish (t : TransferBuilder) (rng : Draw) (note : TransferNote) (sk : Fr) :
    Res (TransferNote × List E.AeadCt × E.Sig) := do
  let memos ← Wallet.payMemos rng.memos 0 t.output_ros
  let sig ← signReceiverMemos sk memos
  .ok (note, memos, sig)

/-- `params_builder.rs:782-822` `build_transfer_note_native` -/
def buildNative (b : Build) (t : TransferBuilder) (rng : Draw) (pk : TransferProvingKey) :
    Res (TransferNote × List E.AeadCt × E.Sig) := do
  t.lenCheck
  match t.input_ros with
  | [] => .error .panic
  | ro :: _ => do
    let fee ← subU128 b ro.amount t.fee_chg_ro.amount
    let (note, sk, _) ← TransferNote.generateNative b rng.chg_blind rng.note
      (t.inputs.map (fun i => { i with cred := none })) t.output_ros fee Wallet.unexpiredValidUntil pk
    t.finish rng note sk

/-- `params_builder.rs:825-878` `build_transfer_note_non_native` -/
def buildNonNative (b : Build) (t : TransferBuilder) (rng : Draw) (pk : TransferProvingKey) (valid_until : U64)
    (extra : List Byte) : Res (TransferNote × List E.AeadCt × E.Sig) := do
  t.lenCheck
  match t.inputs with
  | [] => .error .panic
  | i0 :: is => do
    let fee_amount ← subU128 b i0.ro.amount t.fee_chg_ro.amount
    let (note, sk) ← TransferNote.generateNonNative b rng.note is t.output_ros
      ⟨⟨i0.ro, i0.acc, i0.owner_keypair⟩, fee_amount, t.fee_chg_ro⟩ valid_until pk extra
    t.finish rng note sk

/-- `params_builder.rs:755-779` `build_transfer_note` -/
def buildTransferNote (b : Build) (t : TransferBuilder) (rng : Draw) (pk : TransferProvingKey) (valid_until : U64)
    (extra : List Byte) : Res (TransferNote × List E.AeadCt × E.Sig) :=
  match t.asset with
  | none => t.buildNative b rng pk
  | some _ => t.buildNonNative b rng pk valid_until extra

/-- What `rand` draws, for the builder and for the note. -/
structure Sample where
  cred_expiry : U64
  fee : Amount
  fee_change : Amount
  /-- `rng.gen_range(1..50)` -/
  unit : ℕ
  /-- `rng.gen_bool(0.2)` -/
  native : Bool
  viewer : ViewerKeyPair
  minter : Fr
  freezer : Fr
  seed : F
  in_blinds : ℕ → F
  receivers : ℕ → UserKeyPair
  out_blinds : ℕ → F
  attrs : ℕ → List IdentityAttribute
  draw : Draw
  extra : List Byte

omit E S in
/-- `params_builder.rs:705-709`: each of `n` amounts is `total / n` -/
def shares (total n : ℕ) : List Amount := List.replicate n (Fin.ofNat (2 ^ 128) (total / n))

omit S in
/-- the public part of `rand` (`params_builder.rs:713-720`), and `get_builder_transfer` (`bench_utils/mod.rs:317-341`) -/
def make (num_input num_output : ℕ) (depth : Fin 256) (users : List UserKeyPair) (asset : Option NonNativeAsset)
    (in_blinds : ℕ → F) (fee_input : Amount) (ins : List Amount) (receivers : ℕ → UserPubKey) (out_blinds : ℕ → F)
    (fee_chg : Amount) (outs : List Amount) (attrs : ℕ → List IdentityAttribute) (expiry : U64) : Res TransferBuilder := do
  let t ← new num_input num_output depth users asset
  let t ← t.setInputAmounts in_blinds fee_input ins
  let t ← t.setOutputAmounts receivers out_blinds fee_chg outs
  t.setInputCreds attrs expiry

omit S in
/-- the asset of a sample -/
def Sample.asset (x : Sample) : Res (Option NonNativeAsset) :=
  if x.native then .ok none
  else do
    let a ← NonNativeAsset.generate x.viewer x.minter x.freezer x.seed
    .ok (some a)

omit S in
/-- `params_builder.rs:688-724` `rand` -/
def rand (x : Sample) (num_input num_output : ℕ) (depth : Fin 256) (users : List UserKeyPair) : Res TransferBuilder := do
  ensure (decide (num_input ≠ 0 ∧ num_output ≠ 0)) .panic
  ensure (decide (num_input ≠ 1 ∧ num_output ≠ 1)) .panic
  let total := x.unit * (num_input - 1) * (num_output - 1)
  let asset ← x.asset
  make num_input num_output depth users asset x.in_blinds x.fee (shares total (num_input - 1))
    (fun i => (x.receivers i).pubKey) x.out_blinds x.fee_change (shares total (num_output - 1)) x.attrs x.cred_expiry

end TransferBuilder

/-! ### Mints -/

/-- `params_builder.rs:934-946` `MintParamsBuilder` -/
structure MintBuilder where
  tree_depth : Fin 256
  minter : UserKeyPair
  fee_ro : RecordOpening
  fee : Amount
  mint_ro : RecordOpening
  ac_seed : F
  ac_description : List Byte
  acc : AccMemberWitness

namespace MintBuilder

/-- b"arbitrary description" -/
def description : List Byte :=
  [97, 114, 98, 105, 116, 114, 97, 114, 121, 32, 100, 101, 115, 99, 114, 105, 112, 116, 105, 111, 110]

/-- `params_builder.rs:1018-1024` `update_acc_member_witness` -/
def updateAccMemberWitness (m : MintBuilder) (tree : LedgerState) (uid : ℕ) : Res MintBuilder := do
  let acc ← Wallet.lookupFromTree m.tree_depth.val tree (Fin.ofNat (2 ^ 64) uid)
  .ok { m with acc }

/-- `params_builder.rs:951-1007` `new`, with `1009-1016` `refresh_merkle_root`; the seed and two blinding factors are drawn -/
def new (seed fee_blind mint_blind : F) (depth : Fin 256) (input_amount fee mint_amount : Amount)
    (minter receiver : UserKeyPair) (viewer : ViewerKeyPair) : Res MintBuilder := do
  let fee_ro : RecordOpening := ⟨input_amount, AssetDefinition.native, minter.pubKey, .unfrozen, fee_blind⟩
  let ad ← unwrapRes (AssetDefinition.new (newDomestic seed description) AssetPolicy.default)
  let mint_ro : RecordOpening := ⟨mint_amount, { ad with policy := ad.policy.setViewerPubKey viewer.pubKey }, receiver.pubKey,
    .unfrozen, mint_blind⟩
  let m : MintBuilder := ⟨depth, minter, fee_ro, fee, mint_ro, seed, description, ⟨[], 0, 0⟩⟩
  let tree ← treeOf depth.val [fee_ro.commitment]
  m.updateAccMemberWitness tree 0

variable [S : CapExt]

/-- `params_builder.rs:1098-1125` `build_mint_note` -/
def buildMintNote (m : MintBuilder) (chg_blind : F) (rng : TransferRand) (pk : MintProvingKey) :
    Res (MintNote × Fr × RecordOpening) := do
  let (info, chg) ← TxnFeeInfo.new chg_blind ⟨m.fee_ro, m.acc, m.minter⟩ m.fee
  let (note, sk) ← MintNote.generate rng m.mint_ro m.ac_seed m.ac_description info pk
  .ok (note, sk, chg)

/-- What is drawn for a mint. -/
structure Sample where
  input_amount : Amount
  fee : Amount
  mint_amount : Amount
  minter : UserKeyPair
  receiver : UserKeyPair
  viewer : ViewerKeyPair
  seed : F
  fee_blind : F
  mint_blind : F
  chg_blind : F
  note : TransferRand

omit S in
/-- `params_builder.rs:1128-1151` `rand` -/
def rand (x : Sample) (depth : Fin 256) : Res MintBuilder :=
  new x.seed x.fee_blind x.mint_blind depth x.input_amount x.fee x.mint_amount x.minter x.receiver x.viewer

end MintBuilder

/-! ### Freezing -/

/-- `params_builder.rs:1156-1161` `FreezeParamsBuilder` -/
structure FreezeBuilder where
  tree_depth : Fin 256
  inputs : List FreezeNoteInput
  fee_input : FeeInput
  fee : Amount

namespace FreezeBuilder

/-- What is drawn for one input: an asset definition (its freezer is replaced), an owner and a blinding factor. -/
structure InputSample where
  asset_def : AssetDefinition
  owner : UserKeyPair
  blind : F

/-- `params_builder.rs:1272-1307` `update_acc_member_witness`, with the inputs from `offset` on and the fee record after them -/
def updateAccMemberWitness (f : FreezeBuilder) (tree : LedgerState) (offset : ℕ) : Res FreezeBuilder := do
  let found ← lookupFrom f.tree_depth.val tree offset f.inputs.length
  let acc ← Wallet.lookupFromTree f.tree_depth.val tree (Fin.ofNat (2 ^ 64) (offset + f.inputs.length))
  .ok { f with
    inputs := (f.inputs.zip found).map (fun x => { x.1 with acc := x.2 })
    fee_input := { f.fee_input with acc } }

/-- the leaves of one builder: its inputs, then the fee record -/
def leaves (f : FreezeBuilder) : List F := f.inputs.map (·.ro.commitment) ++ [f.fee_input.ro.commitment]

/-- `params_builder.rs:1263-1270` `refresh_merkle_root` -/
def refreshMerkleRoot (f : FreezeBuilder) : Res FreezeBuilder := do
  let tree ← treeOf f.tree_depth.val f.leaves
  f.updateAccMemberWitness tree 0

/-- the record of one input, `params_builder.rs:1183-1193` -/
def inputOf (draws : ℕ → InputSample) (i : ℕ) (amount : Amount) (k : FreezerKeyPair) : FreezeNoteInput :=
  let x := draws i
  ⟨⟨amount, { x.asset_def with policy := x.asset_def.policy.setFreezerPubKey k.pub_key }, x.owner.pubKey, .unfrozen, x.blind⟩,
    ⟨[], 0, 0⟩, k⟩

/-- `params_builder.rs:1165-1217` `new` -/
def new (draws : ℕ → InputSample) (fee_blind : F) (depth : Fin 256) (amounts : List Amount) (fee_input_amount fee : Amount)
    (fee_keypair : UserKeyPair) (freezers : List FreezerKeyPair) : Res FreezeBuilder := do
  ensure (decide (amounts.length = freezers.length)) .panic
  refreshMerkleRoot ⟨depth, (amounts.zip freezers).mapIdx (fun i x => inputOf draws i x.1 x.2),
    ⟨⟨fee_input_amount, AssetDefinition.native, fee_keypair.pubKey, .unfrozen, fee_blind⟩, ⟨[], 0, 0⟩, fee_keypair⟩, fee⟩

/-- `params_builder.rs:1327-1336` `update_input_freeze_flag` -/
def updateInputFreezeFlag (f : FreezeBuilder) (i : ℕ) (flag : FreezeFlag) : Res FreezeBuilder := do
  ensure (decide (i < f.inputs.length)) .panic
  refreshMerkleRoot { f with inputs := f.inputs.modify i (fun x => { x with ro := { x.ro with freeze_flag := flag } }) }

variable [S : CapExt]

/-- `params_builder.rs:1370-1388` `build_freeze_note` -/
def buildFreezeNote (f : FreezeBuilder) (chg_blind : F) (rng : FreezeRand) (pk : FreezeProvingKey) :
    Res (FreezeNote × Fr × RecordOpening × List RecordOpening) := do
  let (info, chg) ← TxnFeeInfo.new chg_blind f.fee_input f.fee
  let (note, sk, outs) ← FreezeNote.generate rng f.inputs info pk
  .ok (note, sk, chg, outs)

/-- What is drawn for a freezing transaction. -/
structure Sample where
  amounts : ℕ → Amount
  inputs : ℕ → InputSample
  /-- `rng.gen_bool(0.5)` -/
  frozen : ℕ → Bool
  fee_input_amount : Amount
  fee : Amount
  fee_keypair : UserKeyPair
  freezers : List Fr
  fee_blind : F
  chg_blind : F
  note : FreezeRand

omit S in
/-- the fold of `params_builder.rs:1254-1260` over these indices -/
def freezeSome (frozen : ℕ → Bool) : FreezeBuilder → List ℕ → Res FreezeBuilder
  | f, [] => .ok f
  | f, i :: is => do
    let f ← if frozen i then f.updateInputFreezeFlag i .frozen else .ok f
    freezeSome frozen f is

omit S in
/-- `params_builder.rs:1229-1261` `rand` -/
def rand (x : Sample) (depth : Fin 256) : Res FreezeBuilder := do
  let n := x.freezers.length
  ensure (decide (0 < n)) .panic
  let f ← new x.inputs x.fee_blind depth ((List.range n).map x.amounts) x.fee_input_amount x.fee x.fee_keypair
    (x.freezers.map FreezerKeyPair.generate)
  freezeSome x.frozen f (List.range n)

end FreezeBuilder

/-! ### A list of transactions -/

variable [S : CapExt]

/-- `params_builder.rs:51-60` `TxnsParams` -/
structure TxnsParams where
  txns : List TransactionNote
  transfer_key : TransferVerifyingKey
  mint_key : MintVerifyingKey
  freeze_key : FreezeVerifyingKey
  valid_until : U64
  merkle_root : F

namespace TxnsParams

/-- What is drawn for a list of transactions. -/
structure Samples where
  users : List UserKeyPair
  transfers : List TransferBuilder.Sample
  mints : List MintBuilder.Sample
  freezes : List FreezeBuilder.Sample

/-- The builders once the common tree is known, each with what is drawn for its note. -/
structure Prepared where
  transfers : List (TransferBuilder × TransferBuilder.Sample)
  mints : List (MintBuilder × MintBuilder.Sample)
  freezes : List (FreezeBuilder × FreezeBuilder.Sample)
  root : F

omit S in
/-- `params_builder.rs:174-178` -/
def placeTransfers (tree : LedgerState) : ℕ → List TransferBuilder → Res (List TransferBuilder × ℕ)
  | offset, [] => .ok ([], offset)
  | offset, t :: ts => do
    let t ← t.updateAccMemberWitness tree offset
    let (ts, last) ← placeTransfers tree (offset + t.input_ros.length) ts
    .ok (t :: ts, last)

omit S in
/-- `params_builder.rs:179-183` -/
def placeMints (tree : LedgerState) : ℕ → List MintBuilder → Res (List MintBuilder × ℕ)
  | offset, [] => .ok ([], offset)
  | offset, m :: ms => do
    let m ← m.updateAccMemberWitness tree offset
    let (ms, last) ← placeMints tree (offset + 1) ms
    .ok (m :: ms, last)

omit S in
/-- `params_builder.rs:184-192` -/
def placeFreezes (tree : LedgerState) : ℕ → List FreezeBuilder → Res (List FreezeBuilder × ℕ)
  | offset, [] => .ok ([], offset)
  | offset, f :: fs => do
    let f ← f.updateAccMemberWitness tree offset
    let (fs, last) ← placeFreezes tree (offset + f.inputs.length + 1) fs
    .ok (f :: fs, last)

omit S in
/-- `params_builder.rs:93-192`: everything up to the proofs, apart from the keys -/
def prepare (x : Samples) (depth : Fin 256) : Res Prepared := do
  let ts ← x.transfers.mapM (fun s => TransferBuilder.rand s 2 3 depth x.users)
  let ms ← x.mints.mapM (fun s => MintBuilder.rand s depth)
  let fs ← x.freezes.mapM (fun s => FreezeBuilder.rand s depth)
  let tree ← treeOf depth.val (ts.flatMap (fun t => t.input_ros.map RecordOpening.commitment) ++
    ms.map (fun m => m.fee_ro.commitment) ++ fs.flatMap FreezeBuilder.leaves)
  let (ts, offset) ← placeTransfers tree 0 ts
  let (ms, offset) ← placeMints tree offset ms
  let (fs, _) ← placeFreezes tree offset fs
  .ok ⟨ts.zip x.transfers, ms.zip x.mints, fs.zip x.freezes, treeRoot depth.val tree.leaves⟩

/-- `params_builder.rs:64-241` `generate_txns`: two inputs and three outputs for transfers, three inputs for freezing,
`valid_until = 1000` -/
def generateTxns (b : Build) (x : Samples) (depth : Fin 256) : Res TxnsParams := do
  let (tpk, tvk) ← unwrapRes (transferPreprocess 2 3 depth)
  let (mpk, mvk) ← unwrapRes (mintPreprocess depth)
  let (fpk, fvk) ← unwrapRes (freezePreprocess 3 depth)
  let p ← prepare x depth
  let ts ← p.transfers.mapM (fun y => do
    let (note, _, _) ← unwrapRes (y.1.buildTransferNote b y.2.draw tpk 1000 y.2.extra)
    .ok (TransactionNote.transfer note))
  let ms ← p.mints.mapM (fun y => do
    let (note, _, _) ← unwrapRes (y.1.buildMintNote y.2.chg_blind y.2.note mpk)
    .ok (TransactionNote.mint note))
  let fs ← p.freezes.mapM (fun y => do
    let (note, _, _, _) ← unwrapRes (y.1.buildFreezeNote y.2.chg_blind y.2.note fpk)
    .ok (TransactionNote.freeze note))
  .ok ⟨ts ++ ms ++ fs, tvk, mvk, fvk, 1000, p.root⟩

/-- `params_builder.rs:243-253` `get_verifying_keys` -/
def verifyingKeys (p : TxnsParams) : List TransactionVerifyingKey :=
  p.txns.map (fun
    | .transfer _ => .transfer p.transfer_key
    | .mint _ => .mint p.mint_key
    | .freeze _ => .freeze p.freeze_key)

/-- `params_builder.rs:255-257` `get_merkle_roots` -/
def merkleRoots (p : TxnsParams) : List F := List.replicate p.txns.length p.merkle_root

end TxnsParams

end Cap
