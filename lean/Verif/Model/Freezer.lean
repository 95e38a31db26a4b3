/-
The freezer of `tests/examples.rs`: it views the transfers and mints of its asset, and freezes and releases the records of
a user.  As in `Model/Wallet.lean`, hash maps and hash sets are lists without repetitions.
-/
import Verif.Model.Wallet

namespace Cap

variable [E : CapEnv] [S : CapExt]

omit E S in
/-- `HashMap::get_mut(&c).unwrap().insert(x)` -/
def mapInsert {α β : Type} [DecidableEq α] [DecidableEq β] (c : α) (x : β) : List (α × List β) → Res (List (α × List β))
  | [] => .error .panic
  | (c', l) :: rest =>
    if c' = c then .ok ((c', setInsert x l) :: rest)
    else do
      let rest ← mapInsert c x rest
      .ok ((c', l) :: rest)

omit S in
/-- `tests/examples.rs:498-501` `ViewerMock` -/
structure Viewer where
  keypair : ViewerKeyPair
  asset_def : AssetDefinition

namespace Viewer

omit S in
/-- the loop of `tests/examples.rs:535-540`: the outputs with their positions -/
def number (b : Build) : U64 → List ViewableData → Res (List (ViewableData × U64))
  | _, [] => .ok []
  | uid, x :: rest => do
    let next ← addU64 b uid 1
    let rest ← number b next rest
    .ok ((x, uid) :: rest)

/-- `tests/examples.rs:512-542` `scan_xfr` -/
def scanXfr (b : Build) (v : Viewer) (note : TransferNote) (uid_offset : U64) :
    Res (List ViewableData × List (ViewableData × U64)) := do
  let n_inputs ← usizePred b note.inputs_nullifiers.length
  let n_outputs ← usizePred b note.output_commitments.length
  let (ins, outs) ← v.keypair.openTransferViewingMemo b v.asset_def note
  ensure (!(decide (0 < ins.length ∧ n_inputs < ins.length))) .internalError
  ensure (!(decide (0 < outs.length ∧ outs.length ≠ n_outputs))) .internalError
  let uid ← addU64 b uid_offset 1
  let outs ← number b uid outs
  .ok (ins, outs)

/-- `tests/examples.rs:544-551` `scan_mint` -/
def scanMint (b : Build) (v : Viewer) (note : MintNote) (uid_offset : U64) : Res (ViewableData × U64) := do
  let data ← v.keypair.openMintViewingMemo note
  let uid ← addU64 b uid_offset 1
  .ok (data, uid)

end Viewer

omit S in
/-- what is kept for an input of a note that is not confirmed yet: the owner, the record with its position, and the record
that replaces it -/
structure Pending where
  owner : Pt
  old : RecordOpening × U64
  new : RecordOpening

omit S in
/-- `tests/examples.rs:554-599` `FreezerMock`.  The structured reference string and the cache of proving keys are left
out, as for the wallet. -/
structure Freezer where
  viewer : Viewer
  keypair : FreezerKeyPair
  wallet : Wallet
  /-- `freezable_records`, by owner -/
  freezable : List (Pt × List (RecordOpening × U64))
  /-- `releasable_records`, by owner -/
  releasable : List (Pt × List (RecordOpening × U64))
  /-- `unconfirmed_frozen_records`, by nullifier -/
  freezing : List (F × Pending)
  /-- `unconfirmed_released_records`, by nullifier -/
  releasing : List (F × Pending)
  /-- `user_keys_oracle` -/
  users : List (Pt × UserPubKey)

/-- What `freeze_user` draws. -/
structure FreezerRand where
  chg_blind : F
  /-- key pair and blinding factor of the first dummy -/
  dummy_key : UserKeyPair
  dummy_blind : F
  /-- and of the last one -/
  dummy_key' : UserKeyPair
  dummy_blind' : F
  note : FreezeRand
  memos : ℕ → ℕ

namespace Freezer

omit S in
/-- `tests/examples.rs:602-631` `generate`, with the drawn key pairs as parameters -/
def generate (fk : FreezerKeyPair) (vk : ViewerKeyPair) (wk : UserKeyPair) (code : AssetCode) : Res Freezer := do
  let policy ← unwrapRes
    ((AssetPolicy.default.setViewerPubKey vk.pubKey).setFreezerPubKey fk.pub_key).revealRecordOpening
  let ad ← unwrapRes (AssetDefinition.new code policy)
  .ok ⟨⟨vk, ad⟩, fk, Wallet.new wk, [], [], [], [], []⟩

omit S in
/-- `tests/examples.rs:641-643` `add_user_key` -/
def addUserKey (f : Freezer) (key : UserPubKey) : Freezer := { f with users := mapSet key.address key f.users }

omit S in
/-- `tests/examples.rs:705-712`, `736-743`: the record that the data describe, for a known user.  A missing field or an
unknown user panics. -/
def describe (f : Freezer) (x : ViewableData) : Res (Pt × RecordOpening) :=
  match x.user_address, x.amount, x.blinding_factor with
  | some owner, some amount, some blind =>
    match mapGet owner f.users with
    | some key => .ok (owner, ⟨amount, f.viewer.asset_def, key, .unfrozen, blind⟩)
    | none => .error .panic
  | _, _, _ => .error .panic

/-- `tests/examples.rs:701-728` `scan_mint` -/
def scanMint (b : Build) (f : Freezer) (note : MintNote) (uid_offset : U64) : Res Freezer := do
  let (x, uid) ← f.viewer.scanMint b note uid_offset
  let (owner, ro) ← f.describe x
  .ok { f with freezable := mapAdd owner (ro, uid) f.freezable }

omit S in
/-- the loop of `tests/examples.rs:735-760` -/
def addOutputs : Freezer → List (ViewableData × U64) → Res Freezer
  | f, [] => .ok f
  | f, (x, uid) :: rest => do
    let (owner, ro) ← f.describe x
    addOutputs { f with freezable := mapAdd owner (ro, uid) f.freezable } rest

/-- `tests/examples.rs:730-762` `scan_xfr` -/
def scanXfr (b : Build) (f : Freezer) (note : TransferNote) (uid_offset : U64) : Res Freezer := do
  let (_, outs) ← f.viewer.scanXfr b note uid_offset
  addOutputs f outs

omit S in
/-- `tests/examples.rs:768-787`: one nullifier, for records being frozen -/
def confirmFrozen (b : Build) (f : Freezer) (uid : U64) (position : ℕ) (nullifier : F) : Res Freezer :=
  match mapGet nullifier f.freezing with
  | none => .ok f
  | some x => do
    let freezable ← mapRemove x.owner x.old f.freezable
    let uid ← addU64 b uid position
    .ok { f with
      freezable, releasable := mapAdd x.owner (x.new, uid) f.releasable
      freezing := f.freezing.filter (fun e => e.1 ≠ nullifier) }

omit S in
/-- `tests/examples.rs:788-801`: one nullifier, for records being released -/
def confirmReleased (b : Build) (f : Freezer) (uid : U64) (position : ℕ) (nullifier : F) : Res Freezer :=
  match mapGet nullifier f.releasing with
  | none => .ok f
  | some x => do
    let releasable ← mapRemove x.owner x.old f.releasable
    let uid ← addU64 b uid position
    let freezable ← mapInsert x.owner (x.new, uid) f.freezable
    .ok { f with releasable, freezable, releasing := f.releasing.filter (fun e => e.1 ≠ nullifier) }

omit S in
/-- the loop of `tests/examples.rs:767-802`, from `position` on -/
def confirmAll (b : Build) (uid : U64) : ℕ → List F → Freezer → Res Freezer
  | _, [], f => .ok f
  | position, n :: ns, f => do
    let f ← f.confirmFrozen b uid position n
    let f ← f.confirmReleased b uid position n
    confirmAll b uid (position + 1) ns f

/-- `tests/examples.rs:764-804` `scan_freeze` -/
def scanFreeze (b : Build) (f : Freezer) (note : FreezeNote) (uid_offset : U64) : Res Freezer := do
  let uid ← addU64 b uid_offset 1
  confirmAll b uid 0 note.input_nullifiers.tail f

/-- what `scan_txn` does for each kind of note, `tests/examples.rs:694-698` -/
def scanNote (b : Build) (f : Freezer) (txn : TransactionNote) (uid_offset : U64) : Res Freezer :=
  match txn with
  | .transfer n => f.scanXfr b n uid_offset
  | .freeze n => f.scanFreeze b n uid_offset
  | .mint n => f.scanMint b n uid_offset

/-- `tests/examples.rs:685-699` `scan_txn`: the freezer afterwards, and the result.  When the note cannot be viewed the
wallet has been updated all the same. -/
def scanTxn (b : Build) (f : Freezer) (txn : TransactionNote) (memos : List E.AeadCt) (uid_offset : U64) :
    Freezer × Res Unit :=
  match f.wallet.scanTxn b txn memos uid_offset with
  | .error e => (f, .error e)
  | .ok (w, _) =>
    match scanNote b { f with wallet := w } txn uid_offset with
    | .error e => ({ f with wallet := w }, .error e)
    | .ok f' => (f', .ok ())

/-- the loop of `tests/examples.rs:677-681`: it stops at the first error -/
def scanTxns (b : Build) : Freezer → List (TransactionNote × List E.AeadCt) → U64 → Freezer × Res Unit
  | f, [], _ => (f, .ok ())
  | f, (t, memos) :: rest, uid_offset =>
    match scanTxn b f t memos uid_offset with
    | (f', .error e) => (f', .error e)
    | (f', .ok ()) =>
      match addU64 b uid_offset t.outputLen with
      | .error e => (f', .error e)
      | .ok uid => scanTxns b f' rest uid

/-- `tests/examples.rs:661-683` `scan_block` -/
def scanBlock (b : Build) (f : Freezer) (txns : List TransactionNote) (memos : List (List E.AeadCt)) (uid_offset : U64) :
    Freezer × Res Unit :=
  if txns.length ≠ memos.length then (f, .error .invalidParameter)
  else scanTxns b f (txns.zip memos) uid_offset

omit S in
/-- `FreezerKeyPair::default()`, `keys.rs:486-497` -/
def defaultKey : FreezerKeyPair := ⟨0, 0⟩

omit S in
/-- the loop of `tests/examples.rs:903-913` -/
def freezeInputs (f : Freezer) (d : ℕ) (s : LedgerState) : List (RecordOpening × U64) → Res (List FreezeNoteInput)
  | [] => .ok []
  | x :: rest => do
    let acc ← Wallet.lookupFromTree d s x.2
    let is ← freezeInputs f d s rest
    .ok (⟨x.1, acc, f.keypair⟩ :: is)

omit S in
/-- the loop of `tests/examples.rs:945-976`: what is entered into the map of unconfirmed records -/
def markPending (f : Freezer) : List RecordOpening → List (RecordOpening × U64) → List (F × Pending) →
    Res (List (F × Pending))
  | [], _, m => .ok m
  | new :: outs, old, m =>
    if new.isDummy then markPending f outs old m
    else match old with
      | [] => .error .panic
      | x :: old =>
        markPending f outs old
          (mapSet (f.keypair.nullify x.1.pub_key.address x.2 x.1.commitment) ⟨x.1.pub_key.address, x, new⟩ m)

/-- `tests/examples.rs:836-980` `freeze_user_internal`; on success the freezer afterwards, the note, the receiver memos
and their signature.  `flag` is the state of the records before: `.unfrozen` for `freeze_user` (`821-834`), `.frozen` for
`unfreeze_user` (`806-819`).  (After an error the fee record stays marked as being spent; the changed freezer is dropped
here.) -/
def freezeUser (f : Freezer) (d : Fin 256) (s : LedgerState) (rng : FreezerRand) (flag : FreezeFlag) (user : Pt)
    (fee : Amount) : Res (Freezer × FreezeNote × List E.AeadCt × E.Sig) :=
  match mapGet user (match flag with | .unfrozen => f.freezable | .frozen => f.releasable) with
  | none => .error .invalidParameter
  | some records => do
    let fee_record ← f.wallet.findRecordForFee fee
    let acc ← Wallet.lookupFromTree d.val s fee_record.2
    let nullifier := f.wallet.keypair.nullify 0 fee_record.2 fee_record.1.commitment
    let w := f.wallet.markUnconfirmedSpent nullifier fee_record.1 fee_record.2
    let (info, chg) ← unwrapRes (TxnFeeInfo.new rng.chg_blind ⟨fee_record.1, acc, w.keypair⟩ fee)
    let inputs ← f.freezeInputs d.val s records
    let inputs := ⟨RecordOpening.newDummy rng.dummy_key rng.dummy_blind flag, Wallet.dummyWitness d.val, defaultKey⟩ ::
      inputs ++ [⟨RecordOpening.newDummy rng.dummy_key' rng.dummy_blind' flag, Wallet.dummyWitness d.val, defaultKey⟩]
    let keys ← unwrapRes (freezePreprocess (inputs.length + 1) d)
    let (note, sk, outs) ← unwrapRes (FreezeNote.generate rng.note inputs info keys.1)
    let memos ← unwrapRes (Wallet.payMemos rng.memos 0 outs)
    let sig ← signReceiverMemos sk memos
    let f' := { f with wallet := { w with changes := setInsert chg w.changes } }
    match flag with
    | .unfrozen => do
      let freezing ← f.markPending outs records f.freezing
      .ok ({ f' with freezing }, note, memos, sig)
    | .frozen => do
      let releasing ← f.markPending outs records f.releasing
      .ok ({ f' with releasing }, note, memos, sig)

end Freezer

end Cap
