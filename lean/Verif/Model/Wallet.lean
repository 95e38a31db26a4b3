/-
The reference wallet of `tests/examples.rs`: what a user does with the blocks of the ledger and with the receiver memos,
and how payments are made.

Hash maps and hash sets are lists here, without repetitions; the order of a list is the order in which Rust would iterate
over the map.  That order is not specified and may change at any time: the specification (`SpecScan.lean`) lets it.
-/
import Verif.Model.Ledger
import Verif.Model.Memo

namespace Cap

variable [E : CapEnv]

/-- `tests/examples.rs:986-1007` `SimpleUserWalletMock`.  The structured reference string and the cache of proving keys
are left out (a cached key is the one `preprocess` returns for the same numbers of inputs and outputs). -/
structure Wallet where
  keypair : UserKeyPair
  credential : Option ExpirableCredential
  /-- `unconfirmed_spent_records`: nullifier, record, position -/
  pending : List (F × (RecordOpening × U64))
  /-- `unspent_records`: for each asset code the records with their positions -/
  unspent : List (AssetCode × List (RecordOpening × U64))
  /-- `unconfirmed_fee_chg_records` -/
  changes : List RecordOpening

omit E in
/-- `x + n` on `u64` -/
def addU64 (b : Build) (x : U64) (n : ℕ) : Res U64 :=
  if h : x.val + n < 2 ^ 64 then .ok ⟨x.val + n, h⟩
  else match b with
    | .debug => .error .panic
    | .release => .ok (Fin.ofNat (2 ^ 64) (x.val + n))

omit E in
/-- `HashSet::insert` -/
def setInsert {α : Type} [DecidableEq α] (x : α) (l : List α) : List α := if x ∈ l then l else x :: l

omit E in
/-- `HashSet::remove` -/
def setRemove {α : Type} [DecidableEq α] (x : α) (l : List α) : List α := l.filter (fun y => y ≠ x)

omit E in
/-- `HashMap::entry(c).or_insert(HashSet::new()).insert(x)` -/
def mapAdd {α β : Type} [DecidableEq α] [DecidableEq β] (c : α) (x : β) : List (α × List β) → List (α × List β)
  | [] => [(c, [x])]
  | (c', l) :: rest => if c' = c then (c', setInsert x l) :: rest else (c', l) :: mapAdd c x rest

omit E in
/-- `HashMap::get_mut(&c).unwrap().remove(x)` -/
def mapRemove {α β : Type} [DecidableEq α] [DecidableEq β] (c : α) (x : β) : List (α × List β) → Res (List (α × List β))
  | [] => .error .panic
  | (c', l) :: rest =>
    if c' = c then .ok ((c', setRemove x l) :: rest)
    else do
      let rest ← mapRemove c x rest
      .ok ((c', l) :: rest)

omit E in
/-- `HashMap::get` -/
def mapGet {α β : Type} [DecidableEq α] (c : α) : List (α × β) → Option β
  | [] => none
  | (c', v) :: rest => if c' = c then some v else mapGet c rest

omit E in
/-- `HashMap::insert` -/
def mapSet {α β : Type} [DecidableEq α] (c : α) (v : β) (l : List (α × β)) : List (α × β) :=
  (c, v) :: l.filter (fun e => e.1 ≠ c)

namespace Wallet

/-- `tests/examples.rs:1011-1024` `generate`, with the key pair as parameter -/
def new (k : UserKeyPair) : Wallet := ⟨k, none, [], [], []⟩

/-- `tests/examples.rs:1034-1036` `pub_key` -/
def pubKey (w : Wallet) : UserPubKey := w.keypair.pubKey

/-- `tests/examples.rs:1039-1045` `add_record_opening` -/
def addRecordOpening (w : Wallet) (ro : RecordOpening) (uid : U64) : Wallet :=
  { w with unspent := mapAdd ro.asset_def.code (ro, uid) w.unspent }

/-- `tests/examples.rs:1048-1050` `set_credential` -/
def setCredential (w : Wallet) (c : ExpirableCredential) : Wallet := { w with credential := some c }

end Wallet

omit E in
/-- `iter().sum()` of amounts: unchecked `u128` additions, starting with `acc` -/
def sumU128 (b : Build) : Amount → List Amount → Res Amount
  | acc, [] => .ok acc
  | acc, x :: xs => do
    let acc ← addU128 b acc x
    sumU128 b acc xs

namespace Wallet

/-- `tests/examples.rs:1026-1031` `available_funds` -/
def availableFunds (b : Build) (w : Wallet) (code : AssetCode) : Res Amount :=
  match mapGet code w.unspent with
  | some records => sumU128 b 0 (records.map (fun x => x.1.amount))
  | none => .ok 0

/-- the nullifier of a record of this wallet: `tests/examples.rs:1240-1244`, `1505-1509` -/
def nullify (w : Wallet) (x : RecordOpening × U64) : F :=
  w.keypair.nullify x.1.asset_def.policy.freezer_pk x.2 x.1.commitment

/-- `tests/examples.rs:1480-1487` `mark_unconfirmed_spent` -/
def markUnconfirmedSpent (w : Wallet) (nullifier : F) (ro : RecordOpening) (uid : U64) : Wallet :=
  { w with pending := mapSet nullifier (ro, uid) w.pending }

/-- the loop of `tests/examples.rs:1503-1524`: in the first set with a record of this nullifier, the last such record is
removed -/
def dropOwned (w : Wallet) (nullifier : F) :
    List (AssetCode × List (RecordOpening × U64)) → List (AssetCode × List (RecordOpening × U64))
  | [] => []
  | (c, l) :: rest =>
    match l.reverse.find? (fun x => w.nullify x = nullifier) with
    | some x => (c, setRemove x l) :: rest
    | none => (c, l) :: dropOwned w nullifier rest

/-- `tests/examples.rs:1491-1525` `mark_spent_if_owned` -/
def markSpentIfOwned (w : Wallet) (nullifier : F) : Res Wallet := do
  let w ← match mapGet nullifier w.pending with
    | some x => do
      let unspent ← mapRemove x.1.asset_def.code x w.unspent
      .ok { w with unspent, pending := w.pending.filter (fun e => e.1 ≠ nullifier) }
    | none => .ok w
  .ok { w with unspent := dropOwned w nullifier w.unspent }

/-- `for nullifier in txn_note.nullifiers()`, `tests/examples.rs:1110-1112` -/
def markAllSpent : Wallet → List F → Res Wallet
  | w, [] => .ok w
  | w, n :: ns => do
    let w ← w.markSpentIfOwned n
    markAllSpent w ns

/-- `tests/examples.rs:1074-1084`: a waiting change record with the commitment of the first output is added -/
def confirmChange (w : Wallet) (first : F) (uid_offset : U64) : Wallet :=
  match w.changes.find? (fun ro => ro.commitment = first) with
  | some ro => { w with changes := setRemove ro w.changes }.addRecordOpening ro uid_offset
  | none => w

/-- `tests/examples.rs:1094-1103`: an opened record is added unless it is frozen -/
def addReceived (b : Build) (w : Wallet) (ro : RecordOpening) (uid_offset : U64) (position : ℕ) : Res Wallet :=
  match ro.freeze_flag with
  | .unfrozen => do
    let first ← addU64 b uid_offset 1
    let uid ← addU64 b first position
    .ok (w.addRecordOpening ro uid)
  | .frozen => .ok w

variable [S : CapExt]

/-- the loop of `tests/examples.rs:1086-1107`, from the output at `position` on -/
def scanOutputs (b : Build) (uid_offset : U64) : ℕ → List (F × E.AeadCt) → Wallet → Res (Wallet × List RecordOpening)
  | _, [], w => .ok (w, [])
  | position, (rc, memo) :: rest, w =>
    match ReceiverMemo.decrypt memo w.keypair rc [] with
    | .ok ro => do
      let w ← w.addReceived b ro uid_offset position
      let (w, recv) ← scanOutputs b uid_offset (position + 1) rest w
      .ok (w, ro :: recv)
    | .error _ => scanOutputs b uid_offset (position + 1) rest w

/-- `tests/examples.rs:1056-1115` `scan_txn`.  The subtraction in the assertion wraps or panics for a note without
outputs; the assertion then fails. -/
def scanTxn (b : Build) (w : Wallet) (txn : TransactionNote) (memos : List E.AeadCt) (uid_offset : U64) :
    Res (Wallet × List RecordOpening) :=
  match txn.outputCommitments with
  | [] => .error .panic
  | first :: outs =>
    if outs.length ≠ memos.length then .error .panic
    else do
      let w := w.confirmChange first uid_offset
      let (w, recv) ← scanOutputs b uid_offset 0 (outs.zip memos) w
      let w ← w.markAllSpent txn.nullifiers
      .ok (w, recv)

/-- the loop of `tests/examples.rs:1131-1137` -/
def scanTxns (b : Build) : Wallet → List (TransactionNote × List E.AeadCt) → U64 → Res (Wallet × List RecordOpening)
  | w, [], _ => .ok (w, [])
  | w, (t, memos) :: rest, uid_offset => do
    let (w, recv) ← scanTxn b w t memos uid_offset
    let uid_offset ← addU64 b uid_offset t.outputLen
    let (w, more) ← scanTxns b w rest uid_offset
    .ok (w, recv ++ more)

/-- `tests/examples.rs:1122-1139` `scan_block` -/
def scanBlock (b : Build) (w : Wallet) (txns : List TransactionNote) (memos : List (List E.AeadCt)) (uid_offset : U64) :
    Res (Wallet × List RecordOpening) :=
  if txns.length ≠ memos.length then .error .panic
  else scanTxns b w (txns.zip memos) uid_offset

end Wallet

/-! ### Payments -/

/-- `structs.rs:992-1011` `RecordOpening::dummy`, with the drawn key pair and blinding factor as parameters -/
def RecordOpening.newDummy (k : UserKeyPair) (blind : F) (freeze_flag : FreezeFlag) : RecordOpening :=
  ⟨0, AssetDefinition.dummy, k.pubKey, freeze_flag, blind⟩

/-- What the payment functions draw at random. -/
structure PaymentRand where
  dummy_key : UserKeyPair
  dummy_blind : F
  /-- the blinding factors of the outputs -/
  blinds : ℕ → F
  chg_blind : F
  note : TransferRand
  /-- the randomness of the receiver memos -/
  memos : ℕ → ℕ

namespace Wallet

/-- `tests/examples.rs:1168-1183` `find_record_for_fee` -/
def findRecordForFee (w : Wallet) (fee : Amount) : Res (RecordOpening × U64) :=
  match mapGet nativeCode w.unspent with
  | none => .error .invalidParameter
  | some records =>
    match records.find? (fun x => fee ≤ x.1.amount) with
    | none => .error .invalidParameter
    | some x => .ok x

/-- the loop of `tests/examples.rs:1202-1208` -/
def collectRecords (b : Build) (amount : Amount) : List (RecordOpening × U64) → Amount →
    List (RecordOpening × U64) → Res (List (RecordOpening × U64) × Amount)
  | [], _, _ => .error .invalidParameter
  | x :: rest, current, result => do
    let current ← addU128 b current x.1.amount
    let result := result ++ [x]
    if amount ≤ current then .ok (result, current - amount)
    else collectRecords b amount rest current result

/-- `tests/examples.rs:1187-1214` `find_records` -/
def findRecords (b : Build) (w : Wallet) (code : AssetCode) (amount : Amount) :
    Res (List (RecordOpening × U64) × Amount) :=
  match mapGet code w.unspent with
  | none => .error .invalidParameter
  | some records => collectRecords b amount records 0 []

/-- `AccMemberWitness::lookup_from_tree(tree, uid).expect_ok().unwrap().1` (jf-primitives): panics when there is no leaf
at this position -/
def lookupFromTree (d : ℕ) (s : LedgerState) (uid : U64) : Res AccMemberWitness :=
  if uid.val < s.leaves.length then .ok ⟨treePath d s.leaves uid.val, treeRoot d s.leaves, uid⟩ else .error .panic

/-- `AccMemberWitness::dummy(depth)` (jf-primitives): a path of zeros, position 0.  The values of the path are not used
anywhere (C05: dummies need no membership). -/
def dummyWitness (d : ℕ) : AccMemberWitness := ⟨List.replicate d ⟨0, 0, .left⟩, 0, 0⟩

/-- the loop of `tests/examples.rs:1232-1261`, for the records before the dummy; `cred` is what goes into the inputs -/
def prepareInputs (w : Wallet) (d : ℕ) (s : LedgerState) (cred : Option ExpirableCredential) (dummy_key : UserKeyPair) :
    List (RecordOpening × U64) → Res (List TransferNoteInput)
  | [] => .ok []
  | x :: rest => do
    let i : TransferNoteInput ←
      if x.1.isDummy then .ok ⟨x.1, dummyWitness d, dummy_key, none⟩
      else do
        let acc ← lookupFromTree d s x.2
        .ok ⟨x.1, acc, w.keypair, cred⟩
    let is ← prepareInputs w d s cred dummy_key rest
    .ok (i :: is)

/-- the records of a list that are not dummies are marked as being spent -/
def markAll (w : Wallet) : List (RecordOpening × U64) → Wallet
  | [] => w
  | x :: rest =>
    if x.1.isDummy then markAll w rest else markAll (w.markUnconfirmedSpent (w.nullify x) x.1 x.2) rest

/-- `tests/examples.rs:1264-1273`: the outputs of a payment -/
def payOutputs (blinds : ℕ → F) (ad : AssetDefinition) (recipients : List (UserPubKey × Amount)) : List RecordOpening :=
  recipients.mapIdx (fun i r => ⟨r.2, ad, r.1, .unfrozen, blinds i⟩)

variable [S : CapExt]

/-- `tests/examples.rs:1314-1318`: a receiver memo for every output, from output `i` on -/
def payMemos (memos : ℕ → ℕ) : ℕ → List RecordOpening → Res (List E.AeadCt)
  | _, [] => .ok []
  | i, ro :: ros => do
    let c ← ReceiverMemo.fromRo (memos i) ro []
    let cs ← payMemos memos (i + 1) ros
    .ok (c :: cs)

omit S in
/-- `2^MAX_TIMESTAMP_LEN - 1`, `tests/examples.rs:984` -/
def unexpiredValidUntil : U64 := ⟨2 ^ 20 - 1, by decide⟩

/-- `tests/examples.rs:1216-1322` `spend_native`; on success the wallet afterwards, the note, the receiver memos and
their signature.  (After an error the records that were looked up stay marked as being spent; the changed wallet is dropped
here.)  The depth `TREE_DEPTH` is a parameter. -/
def spendNative (b : Build) (w : Wallet) (d : Fin 256) (s : LedgerState) (rng : PaymentRand)
    (recipients : List (UserPubKey × Amount)) (fee : Amount) :
    Res (Wallet × TransferNote × List E.AeadCt × E.Sig) := do
  let total_output ← sumU128 b 0 (recipients.map (·.2))
  let total_output ← addU128 b total_output fee
  let (records, _) ← findRecords b w nativeCode total_output
  let records := records ++ [(RecordOpening.newDummy rng.dummy_key rng.dummy_blind .unfrozen, 0)]
  let inputs ← prepareInputs w d.val s none rng.dummy_key records
  let outputs := payOutputs rng.blinds AssetDefinition.native recipients
  let keys ← unwrapRes (transferPreprocess inputs.length (outputs.length + 1) d)
  let (note, sk, chg) ← TransferNote.generateNative b rng.chg_blind rng.note inputs outputs fee unexpiredValidUntil keys.1
  let memos ← payMemos rng.memos 0 outputs
  let sig ← signReceiverMemos sk memos
  let w := w.markAll records
  .ok ({ w with changes := setInsert chg w.changes }, note, memos, sig)

/-- `tests/examples.rs:1327-1477` `spend_non_native`, likewise -/
def spendNonNative (b : Build) (w : Wallet) (d : Fin 256) (s : LedgerState) (rng : PaymentRand) (ad : AssetDefinition)
    (recipients : List (UserPubKey × Amount)) (fee : Amount) :
    Res (Wallet × TransferNote × List E.AeadCt × E.Sig) := do
  ensure (ad ≠ AssetDefinition.native) .panic
  let total_output ← sumU128 b 0 (recipients.map (·.2))
  let fee_record ← findRecordForFee w fee
  let acc ← lookupFromTree d.val s fee_record.2
  let (info, chg) ← unwrapRes (TxnFeeInfo.new rng.chg_blind ⟨fee_record.1, acc, w.keypair⟩ fee)
  let (records, change) ← findRecords b w ad.code total_output
  let records := records ++ [(RecordOpening.newDummy rng.dummy_key rng.dummy_blind .unfrozen, 0)]
  let inputs ← prepareInputs w d.val s w.credential rng.dummy_key records
  let recipients := if 0 < change then recipients ++ [(w.pubKey, change)] else recipients
  let outputs := payOutputs rng.blinds ad recipients
  let valid_until := match w.credential with
    | none => unexpiredValidUntil
    | some c => c.expiry
  let keys ← unwrapRes (transferPreprocess (inputs.length + 1) (outputs.length + 1) d)
  let (note, sk) ← TransferNote.generateNonNative b rng.note inputs outputs info valid_until keys.1 []
  let memos ← payMemos rng.memos 0 outputs
  let sig ← signReceiverMemos sk memos
  let w := (w.markUnconfirmedSpent (w.nullify fee_record) fee_record.1 fee_record.2).markAll records
  .ok ({ w with changes := setInsert chg w.changes }, note, memos, sig)

end Wallet

end Cap
