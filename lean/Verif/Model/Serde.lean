/-
The serde forms of the library's values: the binary form, as written and read by `bincode`, and the text form `TAG~…` of the
types that carry `#[tagged_blob]`; the decimal form of amounts.

`#[tagged_blob("TAG")]` of jf-utils (external) gives a type these two forms on top of its canonical bytes: in binary form the bytes with
their number before them, in text form the tag and the bytes.
-/
import Verif.Model.KeyBytes

namespace Cap

namespace Format

/-- bincode's form of jf-utils' `CanonicalBytes`: the number of bytes, then the bytes.  Whether the reader refuses bytes after the
value is `strict`; `bad` is what becomes of an error of the inner reader. -/
def blob {α : Type} (strict : Bool) (bad : SerErr → SerErr) (a : Format α) : Format α where
  ser x := leBytes 8 (a.ser x).length ++ a.ser x
  de bs := do
    let (len, bs) ← readExact 8 bs
    let (body, rest) ← readExact (ofLe len) bs
    match a.de body with
    | .ok (x, left) => if strict && !left.isEmpty then .error (bad .invalidData) else .ok (x, rest)
    | .error e => .error (bad e)

end Format

/-- a codec as a format -/
def Codec.format {α : Type} (c : Codec α) : Format α := ⟨c.ser, c.de⟩

/-- bincode's form of the derived serde of an enum: the number of the variant in four bytes (`structs.rs:874-880`
`FreezeFlag`) -/
def freezeFlagSerde : Format FreezeFlag where
  ser
    | .unfrozen => leBytes 4 0
    | .frozen => leBytes 4 1
  de bs := do
    let (b, rest) ← readExact 4 bs
    if ofLe b = 0 then .ok (.unfrozen, rest)
    else if ofLe b = 1 then .ok (.frozen, rest)
    else .error .invalidData

/-! ### Amounts as decimal numbers -/

/-- `structs.rs:159` `Display` of `Amount`, derived: that of `u128`.  The digits, most significant first. -/
def amountText (n : ℕ) : List Byte :=
  if n < 10 then [UInt8.ofNat (48 + n)] else amountText (n / 10) ++ [UInt8.ofNat (48 + n % 10)]
decreasing_by omega

/-- the loop of `u128::from_str`: multiply by ten and add, with checked arithmetic -/
def readDigits (acc : ℕ) : List Byte → Option ℕ
  | [] => some acc
  | b :: bs =>
    if 48 ≤ b.toNat ∧ b.toNat ≤ 57 then
      if acc * 10 + (b.toNat - 48) < 2 ^ 128 then readDigits (acc * 10 + (b.toNat - 48)) bs else none
    else none

/-- `structs.rs:160` `FromStr` of `Amount`, derived: that of `u128`.  Empty text and a lone sign are refused, a plus sign may
precede the digits. -/
def Amount.parse (bs : List Byte) : Option Amount :=
  let digits := if bs.head? = some 43 then bs.tail else bs
  if digits = [] then none else (readDigits 0 digits).map (Fin.ofNat (2 ^ 128))

/-! ### Tagged types -/

/-- The types with `#[tagged_blob]`: `structs.rs` and `keys.rs`, and the verifying key of `lib.rs`. -/
inductive Kind where
  | assetSeed | internalAssetCode | assetCode | assetDefinition | blind | nullifier | commitment | credential | idAttribute
  | viewingMemo | receiverMemo | userPubKey | userKey | credPubKey | credKey | viewerPubKey | viewerKey | freezerPubKey
  | freezerKey | nullifierKey | verifyingKey
deriving DecidableEq, Repr

/-- the argument of the attribute -/
def Kind.tag : Kind → String
  | .assetSeed => "ASSET_SEED"  -- `structs.rs:60`
  | .internalAssetCode => "INTERNAL_ASSET_CODE"  -- `structs.rs:97`
  | .assetCode => "ASSET_CODE"  -- `structs.rs:222`
  | .assetDefinition => "ASSET_DEF"  -- `structs.rs:722`
  | .blind => "BLIND"  -- `structs.rs:786`
  | .nullifier => "NUL"  -- `structs.rs:810`
  | .commitment => "REC"  -- `structs.rs:835`
  | .credential => "CRED"  -- `structs.rs:1059`
  | .idAttribute => "ID"  -- `structs.rs:1072`
  | .viewingMemo => "AUDMEMO"  -- `structs.rs:1259`
  | .receiverMemo => "RECMEMO"  -- `structs.rs:1594`
  | .userPubKey => "USERPUBKEY"  -- `keys.rs:83`
  | .userKey => "USERKEY"  -- `keys.rs:163`
  | .credPubKey => "CREDPUBKEY"  -- `keys.rs:244`
  | .credKey => "CREDKEY"  -- `keys.rs:284`
  | .viewerPubKey => "AUDPUBKEY"  -- `keys.rs:318`
  | .viewerKey => "AUDKEY"  -- `keys.rs:353`
  | .freezerPubKey => "FREEZEPUBKEY"  -- `keys.rs:455`
  | .freezerKey => "FREEZEKEY"  -- `keys.rs:486`
  | .nullifierKey => "NULKEY"  -- `keys.rs:573`
  | .verifyingKey => "TXVERKEY"  -- `lib.rs:374`

variable [E : CapEnv] [S : CapExt] [W : WireEnv]

/-- The external forms. -/
class SerdeEnv where
  /-- whether jf-utils refuses a tagged blob with bytes after the value.  (Not in /repo; no theorem depends on it, except
  where it is a hypothesis.) -/
  strict : Bool
  /-- canonical bytes of `schnorr::KeyPair`, `elgamal::KeyPair`, `aead::KeyPair`, `aead::Ciphertext` -/
  signKey : Codec Fr
  viewKey : Codec Fr
  aeadKey : Codec E.AeadSk
  memo : Codec E.AeadCt
  /-- canonical bytes of the three verifying keys -/
  transferVk : Codec TransferVerifyingKey
  mintVk : Codec MintVerifyingKey
  freezeVk : Codec FreezeVerifyingKey
  /-- bincode of `schnorr::VerKey`, of a Merkle root, of jf-plonk's proof -/
  verKey : Format Pt
  verKey_round_trip : ∀ x rest, verKey.de (verKey.ser x ++ rest) = .ok (x, rest)
  verKey_more : ∀ bs x rest t, verKey.de bs = .ok (x, rest) → verKey.de (bs ++ t) = .ok (x, rest ++ t)
  node : Format F
  node_round_trip : ∀ x rest, node.de (node.ser x ++ rest) = .ok (x, rest)
  node_more : ∀ bs x rest t, node.de bs = .ok (x, rest) → node.de (bs ++ t) = .ok (x, rest ++ t)
  proof : Format S.Proof
  proof_round_trip : ∀ x rest, proof.de (proof.ser x ++ rest) = .ok (x, rest)
  proof_more : ∀ bs x rest t, proof.de bs = .ok (x, rest) → proof.de (bs ++ t) = .ok (x, rest ++ t)
  /-- the bytes of a key fit into memory -/
  encKey_short : ∀ k, (W.encKey.ser k).length < 2 ^ 63
  /-- tagged base64: the text of a tag and bytes, and what a text says -/
  text : String → List Byte → String
  untext : String → Option (String × List Byte)
  untext_text : ∀ t b, untext (text t b) = some (t, b)

variable [V : SerdeEnv]

/-- `keys.rs:171-174` `UserKeyPair` -/
def userKeyFormat : Format UserKeyPair :=
  (V.signKey.format.pair V.aeadKey.format).as (fun k => (k.sk, k.encSk)) (fun x => ⟨x.1, x.2⟩)

/-- `keys.rs:356` `ViewerKeyPair` -/
def viewerKeyFormat : Format ViewerKeyPair := V.viewKey.format.as (fun k => k.sk) (fun x => ⟨x⟩)

/-- `lib.rs:385-438` `TransactionVerifyingKey` -/
def verifyingKeyFormat : Format TransactionVerifyingKey where
  ser := taggedSer V.transferVk V.mintVk V.freezeVk TransactionVerifyingKey.cases
  de := taggedDe V.transferVk V.mintVk V.freezeVk TransactionVerifyingKey.build

/-- the type behind a tag -/
def Kind.Val : Kind → Type
  | .assetSeed | .internalAssetCode | .assetCode | .blind | .nullifier | .commitment | .idAttribute | .nullifierKey => F
  | .assetDefinition => AssetDefinition
  | .credential => E.Sig
  | .viewingMemo => ViewableMemo
  | .receiverMemo => E.AeadCt
  | .userPubKey => UserPubKey
  | .userKey => UserKeyPair
  | .credPubKey | .viewerPubKey | .freezerPubKey => Pt
  | .credKey => Fr
  | .viewerKey => ViewerKeyPair
  | .freezerKey => FreezerKeyPair
  | .verifyingKey => TransactionVerifyingKey

/-- the canonical bytes of a tagged type: `Model/Wire.lean`, `Model/KeyBytes.lean`, and the three above -/
def Kind.format : (k : Kind) → Format k.Val
  | .assetSeed | .internalAssetCode | .assetCode | .blind | .nullifier | .commitment | .idAttribute | .nullifierKey =>
    fieldFormat
  | .assetDefinition => assetDefFormat
  | .credential => W.sig
  | .viewingMemo => memoFormat
  | .receiverMemo => V.memo.format
  | .userPubKey => userPubKeyFormat
  | .userKey => userKeyFormat
  | .credPubKey | .viewerPubKey | .freezerPubKey => ptFormat
  | .credKey => V.signKey.format
  | .viewerKey => viewerKeyFormat
  | .freezerKey => freezerKeyFormat
  | .verifyingKey => verifyingKeyFormat

/-- the binary form of a tagged type -/
def Kind.serde (k : Kind) : Format k.Val := k.format.blob V.strict id

/-- `Display` of a tagged type -/
def Kind.show (k : Kind) (x : k.Val) : String := V.text k.tag (k.format.ser x)

/-- `FromStr` of a tagged type; `none` is an error -/
def Kind.parse (k : Kind) (s : String) : Option k.Val :=
  match V.untext s with
  | none => none
  | some (tag, bytes) =>
    if tag ≠ k.tag then none
    else match k.format.de bytes with
      | .ok (x, left) => if V.strict && !left.isEmpty then none else some x
      | .error _ => none

/-! ### Structs: the derived serde, field by field -/

/-- `structs.rs:326-329` `RevealMap`, `#[serde(from = "CanonicalBytes")]`: a conversion that cannot fail, so bytes that are no
reveal map are a panic -/
def revealMapSerde : Format RevealMap := revealMapFormat.blob V.strict (fun _ => .panic)

/-- `proof/transfer.rs:80-96` `TransferVerifyingKey`, `#[serde(from = "CanonicalBytes")]` likewise -/
def transferVkSerde : Format TransferVerifyingKey := V.transferVk.format.blob V.strict (fun _ => .panic)
/-- `proof/mint.rs:56-64` `MintVerifyingKey` -/
def mintVkSerde : Format MintVerifyingKey := V.mintVk.format.blob V.strict (fun _ => .panic)
/-- `proof/freeze.rs:67-76` `FreezeVerifyingKey` -/
def freezeVkSerde : Format FreezeVerifyingKey := V.freezeVk.format.blob V.strict (fun _ => .panic)

/-- `structs.rs:491-507` `AssetPolicy` -/
def policySerde : Format AssetPolicy :=
  ((Kind.serde .viewerPubKey).pair ((Kind.serde .credPubKey).pair ((Kind.serde .freezerPubKey).pair
    (revealMapSerde.pair amountFormat)))).as
    (fun p => (p.viewer_pk, p.cred_pk, p.freezer_pk, p.reveal_map, p.reveal_threshold))
    (fun x => ⟨x.1, x.2.1, x.2.2.1, x.2.2.2.1, x.2.2.2.2⟩)

/-- `structs.rs:945-966` `RecordOpening`; an amount is a `u128` (`structs.rs:163`), sixteen bytes as in the canonical format -/
def recordSerde : Format RecordOpening :=
  (amountFormat.pair ((Kind.serde .assetDefinition).pair ((Kind.serde .userPubKey).pair (freezeFlagSerde.pair
    (Kind.serde .blind))))).as
    (fun r => (r.amount, r.asset_def, r.pub_key, r.freeze_flag, r.blind))
    (fun x => ⟨x.1, x.2.1, x.2.2.1, x.2.2.2.1, x.2.2.2.2⟩)

/-- `structs.rs:1151-1166` `ExpirableCredential`; `keys.rs:57-67` `UserAddress` -/
def credentialSerde : Format ExpirableCredential :=
  (V.verKey.pair ((Kind.serde .idAttribute).list.pair (u64Format.pair ((Kind.serde .credential).pair
    (Kind.serde .credPubKey))))).as
    (fun c => (c.user_addr, c.attrs, c.expiry, c.cred, c.creator_pk))
    (fun x => ⟨x.1, x.2.1, x.2.2.1, x.2.2.2.1, x.2.2.2.2⟩)

/-- `transfer.rs:70-91` `AuxInfo` -/
def transferAuxSerde : Format TransferAux :=
  (V.node.pair (amountFormat.pair (u64Format.pair (V.verKey.pair byteFormat.list)))).as
    (fun a => (a.merkle_root, a.fee, a.valid_until, a.txn_memo_ver_key, a.extra_proof_bound_data))
    (fun x => ⟨x.1, x.2.1, x.2.2.1, x.2.2.2.1, x.2.2.2.2⟩)

/-- `transfer.rs:46-66` `TransferNote` -/
def transferNoteSerde : Format TransferNote :=
  ((Kind.serde .nullifier).list.pair ((Kind.serde .commitment).list.pair (V.proof.pair ((Kind.serde .viewingMemo).pair
    transferAuxSerde)))).as
    (fun n => (n.inputs_nullifiers, n.output_commitments, n.proof, n.viewing_memo, n.aux_info))
    (fun x => ⟨x.1, x.2.1, x.2.2.1, x.2.2.2.1, x.2.2.2.2⟩)

/-- `mint.rs:63-79` `MintAuxInfo`, `freeze.rs:53-69` `FreezeAuxInfo` -/
def noteAuxSerde : Format NoteAux :=
  (V.node.pair (amountFormat.pair V.verKey)).as (fun a => (a.merkle_root, a.fee, a.txn_memo_ver_key))
    (fun x => ⟨x.1, x.2.1, x.2.2⟩)

/-- `mint.rs:33-60` `MintNote` -/
def mintNoteSerde : Format MintNote :=
  ((Kind.serde .nullifier).pair ((Kind.serde .commitment).pair ((Kind.serde .commitment).pair (amountFormat.pair
    ((Kind.serde .assetDefinition).pair ((Kind.serde .internalAssetCode).pair
    (V.proof.pair ((Kind.serde .viewingMemo).pair noteAuxSerde)))))))).as
    (fun n => (n.input_nullifier, n.chg_comm, n.mint_comm, n.mint_amount, n.mint_asset_def, n.mint_internal_asset_code,
      n.proof, n.viewing_memo, n.aux_info))
    (fun x => ⟨x.1, x.2.1, x.2.2.1, x.2.2.2.1, x.2.2.2.2.1, x.2.2.2.2.2.1, x.2.2.2.2.2.2.1, x.2.2.2.2.2.2.2.1,
      x.2.2.2.2.2.2.2.2⟩)

/-- `freeze.rs:33-50` `FreezeNote` -/
def freezeNoteSerde : Format FreezeNote :=
  ((Kind.serde .nullifier).list.pair ((Kind.serde .commitment).list.pair (V.proof.pair noteAuxSerde))).as
    (fun n => (n.input_nullifiers, n.output_commitments, n.proof, n.aux_info))
    (fun x => ⟨x.1, x.2.1, x.2.2.1, x.2.2.2⟩)

/-- `lib.rs:205-213` `TransactionNote`: the number of the variant in four bytes, then the note -/
def noteSerde : Format TransactionNote where
  ser
    | .transfer n => leBytes 4 0 ++ transferNoteSerde.ser n
    | .mint n => leBytes 4 1 ++ mintNoteSerde.ser n
    | .freeze n => leBytes 4 2 ++ freezeNoteSerde.ser n
  de bs := do
    let (b, bs) ← readExact 4 bs
    if ofLe b = 0 then do
      let (n, bs) ← transferNoteSerde.de bs
      .ok (.transfer n, bs)
    else if ofLe b = 1 then do
      let (n, bs) ← mintNoteSerde.de bs
      .ok (.mint n, bs)
    else if ofLe b = 2 then do
      let (n, bs) ← freezeNoteSerde.de bs
      .ok (.freeze n, bs)
    else .error .invalidData

end Cap
