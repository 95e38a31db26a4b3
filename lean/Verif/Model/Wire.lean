/-
The byte format of notes, records and credentials: what the derived `CanonicalSerialize`/`CanonicalDeserialize` of `/repo/src`
write and read, field by field.

External: the encodings of curve points, of jf-plonk's proofs, of Schnorr signatures and of AEAD keys.
-/
import Verif.Model.Txn

namespace Cap

/-- A pair of a serializer and a deserializer. -/
structure Format (α : Type) where
  ser : α → List Byte
  de : Reader α

namespace Format

/-- two values one after the other; the derive macros treat the fields of a struct like this -/
def pair {α β : Type} (a : Format α) (b : Format β) : Format (α × β) where
  ser x := a.ser x.1 ++ b.ser x.2
  de bs := do
    let (x, bs) ← a.de bs
    let (y, bs) ← b.de bs
    .ok ((x, y), bs)

/-- reading so many values -/
def readMany {α : Type} (de : Reader α) : ℕ → Reader (List α)
  | 0, bs => .ok ([], bs)
  | n + 1, bs => do
    let (x, bs) ← de bs
    let (xs, bs) ← readMany de n bs
    .ok (x :: xs, bs)

/-- arkworks' `Vec<T>`: the length in eight bytes, then the elements -/
def list {α : Type} (a : Format α) : Format (List α) where
  ser l := leBytes 8 l.length ++ l.flatMap a.ser
  de bs := do
    let (len, bs) ← readExact 8 bs
    readMany a.de (ofLe len) bs

/-- a struct seen as the tuple of its fields -/
def as {α β : Type} (a : Format α) (fields : β → α) (make : α → β) : Format β where
  ser x := a.ser (fields x)
  de bs := do
    let (x, bs) ← a.de bs
    .ok (make x, bs)

end Format

/-- arkworks' `u8` -/
def byteFormat : Format Byte where
  ser x := [x]
  de bs := match bs with
    | [] => .error .io
    | x :: rest => .ok (x, rest)

/-- arkworks' `u64` -/
def u64Format : Format U64 where
  ser x := leBytes 8 x.val
  de bs := do
    let (b, rest) ← readExact 8 bs
    .ok (Fin.ofNat (2 ^ 64) (ofLe b), rest)

/-- `structs.rs:174-194` -/
def amountFormat : Format Amount := ⟨Amount.serialize, Amount.deserialize⟩
/-- `structs.rs:331-372` -/
def revealMapFormat : Format RevealMap := ⟨RevealMap.serialize, RevealMap.deserialize⟩
/-- `structs.rs:915-941` -/
def freezeFlagFormat : Format FreezeFlag := ⟨FreezeFlag.serialize, FreezeFlag.deserialize⟩

variable [E : CapEnv] [S : CapExt]

/-- arkworks' prime field elements: 32 bytes, least significant first; values from p upwards are refused.  (Which error is
returned is not modelled.)  Used for `Nullifier`, `RecordCommitment`, `AssetCode`, `InternalAssetCode`, `BlindFactor`,
`IdentityAttribute`, `NodeValue`. -/
def fieldFormat : Format F where
  ser x := leBytes 32 x.val
  de bs := do
    let (b, rest) ← readExact 32 bs
    if ofLe b < E.p then .ok ((ofLe b : F), rest) else .error .invalidData

/-- The external encodings. -/
class WireEnv where
  /-- decompression of 32 bytes; all points held by structs are written like `schnorr::VerKey` -/
  ptRead : List Byte → Option Pt
  ptRead_bytes : ∀ P, ptRead (E.verKeyBytes P) = some P
  proof : Format S.Proof
  proof_round_trip : ∀ x rest, proof.de (proof.ser x ++ rest) = .ok (x, rest)
  proof_more : ∀ bs x rest t, proof.de bs = .ok (x, rest) → proof.de (bs ++ t) = .ok (x, rest ++ t)
  sig : Format E.Sig
  sig_round_trip : ∀ x rest, sig.de (sig.ser x ++ rest) = .ok (x, rest)
  sig_more : ∀ bs x rest t, sig.de bs = .ok (x, rest) → sig.de (bs ++ t) = .ok (x, rest ++ t)
  encKey : Format E.AeadPk
  encKey_round_trip : ∀ x rest, encKey.de (encKey.ser x ++ rest) = .ok (x, rest)
  encKey_more : ∀ bs x rest t, encKey.de bs = .ok (x, rest) → encKey.de (bs ++ t) = .ok (x, rest ++ t)
  /-- `commit::RawCommitmentBuilder::new("Txn Comm").var_size_bytes(bytes).finalize()` -/
  Digest : Type
  txnDigest : List Byte → Digest

variable [W : WireEnv]

/-- arkworks' compressed points -/
def ptFormat : Format Pt where
  ser P := E.verKeyBytes P
  de bs := do
    let (b, rest) ← readExact 32 bs
    match W.ptRead b with
    | some P => .ok (P, rest)
    | none => .error .invalidData

/-- `structs.rs:1268` `ViewableMemo`, jf-primitives `elgamal::Ciphertext` -/
def memoFormat : Format ViewableMemo :=
  (ptFormat.pair fieldFormat.list).as (fun m => (m.ephemeral, m.data)) (fun x => ⟨x.1, x.2⟩)

/-- `structs.rs:500-507` `AssetPolicy` -/
def policyFormat : Format AssetPolicy :=
  (ptFormat.pair (ptFormat.pair (ptFormat.pair (revealMapFormat.pair amountFormat)))).as
    (fun p => (p.viewer_pk, p.cred_pk, p.freezer_pk, p.reveal_map, p.reveal_threshold))
    (fun x => ⟨x.1, x.2.1, x.2.2.1, x.2.2.2.1, x.2.2.2.2⟩)

/-- `structs.rs:732-737` `AssetDefinition` -/
def assetDefFormat : Format AssetDefinition :=
  (fieldFormat.pair policyFormat).as (fun a => (a.code, a.policy)) (fun x => ⟨x.1, x.2⟩)

/-- `transfer.rs:78-91` `AuxInfo` -/
def transferAuxFormat : Format TransferAux :=
  (fieldFormat.pair (amountFormat.pair (u64Format.pair (ptFormat.pair byteFormat.list)))).as
    (fun a => (a.merkle_root, a.fee, a.valid_until, a.txn_memo_ver_key, a.extra_proof_bound_data))
    (fun x => ⟨x.1, x.2.1, x.2.2.1, x.2.2.2.1, x.2.2.2.2⟩)

/-- `transfer.rs:54-66` `TransferNote` -/
def transferNoteFormat : Format TransferNote :=
  (fieldFormat.list.pair (fieldFormat.list.pair (W.proof.pair (memoFormat.pair transferAuxFormat)))).as
    (fun n => (n.inputs_nullifiers, n.output_commitments, n.proof, n.viewing_memo, n.aux_info))
    (fun x => ⟨x.1, x.2.1, x.2.2.1, x.2.2.2.1, x.2.2.2.2⟩)

/-- `mint.rs:71-79` `MintAuxInfo`, `freeze.rs:61-69` `FreezeAuxInfo` -/
def noteAuxFormat : Format NoteAux :=
  (fieldFormat.pair (amountFormat.pair ptFormat)).as (fun a => (a.merkle_root, a.fee, a.txn_memo_ver_key))
    (fun x => ⟨x.1, x.2.1, x.2.2⟩)

/-- `mint.rs:41-60` `MintNote` -/
def mintNoteFormat : Format MintNote :=
  (fieldFormat.pair (fieldFormat.pair (fieldFormat.pair (amountFormat.pair (assetDefFormat.pair (fieldFormat.pair
    (W.proof.pair (memoFormat.pair noteAuxFormat)))))))).as
    (fun n => (n.input_nullifier, n.chg_comm, n.mint_comm, n.mint_amount, n.mint_asset_def, n.mint_internal_asset_code,
      n.proof, n.viewing_memo, n.aux_info))
    (fun x => ⟨x.1, x.2.1, x.2.2.1, x.2.2.2.1, x.2.2.2.2.1, x.2.2.2.2.2.1, x.2.2.2.2.2.2.1, x.2.2.2.2.2.2.2.1,
      x.2.2.2.2.2.2.2.2⟩)

/-- `freeze.rs:41-50` `FreezeNote` -/
def freezeNoteFormat : Format FreezeNote :=
  (fieldFormat.list.pair (fieldFormat.list.pair (W.proof.pair noteAuxFormat))).as
    (fun n => (n.input_nullifiers, n.output_commitments, n.proof, n.aux_info))
    (fun x => ⟨x.1, x.2.1, x.2.2.1, x.2.2.2⟩)

/-- `lib.rs:215-267`: one byte for the kind of transaction, then the note -/
def noteFormat : Format TransactionNote where
  ser
    | .transfer n => 0 :: transferNoteFormat.ser n
    | .mint n => 1 :: mintNoteFormat.ser n
    | .freeze n => 2 :: freezeNoteFormat.ser n
  de bs := do
    let (flag, bs) ← byteFormat.de bs
    if flag = 0 then do
      let (n, bs) ← transferNoteFormat.de bs
      .ok (.transfer n, bs)
    else if flag = 1 then do
      let (n, bs) ← mintNoteFormat.de bs
      .ok (.mint n, bs)
    else if flag = 2 then do
      let (n, bs) ← freezeNoteFormat.de bs
      .ok (.freeze n, bs)
    else .error .invalidData

/-- `keys.rs:93-96` `UserPubKey` -/
def userPubKeyFormat : Format UserPubKey :=
  (ptFormat.pair W.encKey).as (fun k => (k.address, k.enc_key)) (fun x => ⟨x.1, x.2⟩)

/-- `structs.rs:955-966` `RecordOpening` -/
def recordFormat : Format RecordOpening :=
  (amountFormat.pair (assetDefFormat.pair (userPubKeyFormat.pair (freezeFlagFormat.pair fieldFormat)))).as
    (fun r => (r.amount, r.asset_def, r.pub_key, r.freeze_flag, r.blind))
    (fun x => ⟨x.1, x.2.1, x.2.2.1, x.2.2.2.1, x.2.2.2.2⟩)

/-- `structs.rs:1160-1166` `ExpirableCredential` -/
def credentialFormat : Format ExpirableCredential :=
  (ptFormat.pair (fieldFormat.list.pair (u64Format.pair (W.sig.pair ptFormat)))).as
    (fun c => (c.user_addr, c.attrs, c.expiry, c.cred, c.creator_pk))
    (fun x => ⟨x.1, x.2.1, x.2.2.1, x.2.2.2.1, x.2.2.2.2⟩)

/-- `lib.rs:269-277` `TransactionNote::commit` -/
def TransactionNote.commit (t : TransactionNote) : W.Digest := W.txnDigest (noteFormat.ser t)

end Cap
