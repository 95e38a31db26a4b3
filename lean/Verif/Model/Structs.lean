/-
Model of `/repo/src/structs.rs` (first part: asset codes, amounts, reveal maps, policies, asset
definitions, freeze flags, record openings, identity attributes, credentials).
-/
import Verif.Model.Bytes

namespace Cap

/-! ### Amounts (`structs.rs:165-219`) -/

/-- `structs.rs:174-179` -/
def Amount.serialize (a : Amount) : List Byte := leBytes 16 a.val

/-- `structs.rs:187-194` -/
def Amount.deserialize : Reader Amount := fun bs => do
  let (b, rest) ← readExact 16 bs
  .ok (Fin.ofNat (2 ^ 128) (ofLe b), rest)

/-- `structs.rs:196-200` `From<Amount> for U256` (a `U256` is modelled as a natural number) -/
def Amount.toU256 (a : Amount) : ℕ := a.val

/-- `structs.rs:202-219` `TryFrom<U256> for Amount` -/
def Amount.tryFromU256 (v : ℕ) : Res Amount :=
  if v ≤ 2 ^ 128 - 1 then .ok (Fin.ofNat (2 ^ 128) (ofLe ((leBytes 32 v).take 16)))
  else .error .invalidParameter

/-! ### Reveal maps (`structs.rs:327-483`) -/

/-- `structs.rs:327` `RevealMap([bool; VIEWABLE_DATA_LEN])` -/
abbrev RevealMap := Vector Bool 12

namespace RevealMap

/-- `structs.rs:331-340` -/
def serialize (m : RevealMap) : List Byte :=
  leBytes 8 VIEWABLE_DATA_LEN ++ m.toList.map (fun b => if b then 1 else 0)

/-- the `match b` of `structs.rs:364-368` -/
def byteToBool (b : Byte) : Except SerErr Bool :=
  if b = 0 then .ok false else if b = 1 then .ok true else .error .invalidData

/-- `structs.rs:347-372` -/
def deserialize : Reader RevealMap := fun bs => do
  let (len, bs) ← readExact 8 bs
  if ofLe len ≠ VIEWABLE_DATA_LEN then .error .invalidData
  else
    let (buf, bs) ← readExact VIEWABLE_DATA_LEN bs
    let bits ← buf.mapM byteToBool
    if h : bits.toArray.size = 12 then .ok (⟨bits.toArray, h⟩, bs) else .error .invalidData

/-- `RevealMap::default()` -/
def default : RevealMap := Vector.replicate 12 false

/-- `structs.rs:390-393` -/
def revealUserAddress (m : RevealMap) : RevealMap := (m.set 0 true).set 1 true
/-- `structs.rs:396-398` -/
def isUserAddressRevealed (m : RevealMap) : Bool := m[0]
/-- `structs.rs:401-403` -/
def revealAmount (m : RevealMap) : RevealMap := m.set 2 true
/-- `structs.rs:406-408` -/
def isAmountRevealed (m : RevealMap) : Bool := m[2]
/-- `structs.rs:411-413` -/
def revealBlindingFactor (m : RevealMap) : RevealMap := m.set 3 true
/-- `structs.rs:416-418` -/
def isBlindingFactorRevealed (m : RevealMap) : Bool := m[3]

/-- `structs.rs:423-432` -/
def revealIthIdAttribute (m : RevealMap) (i : ℕ) : Res RevealMap :=
  if h : ATTRS_LEN ≤ i then .error .invalidParameter
  else .ok (m.set (ASSET_TRACING_MAP_LEN + i) true
    (by simp only [ATTRS_LEN, ASSET_TRACING_MAP_LEN] at *; omega))

/-- `structs.rs:436-444` -/
def isIthAttributeRevealed (m : RevealMap) (i : ℕ) : Res Bool :=
  if h : ATTRS_LEN ≤ i then .error .invalidParameter
  else .ok (m[ASSET_TRACING_MAP_LEN + i]'
    (by simp only [ATTRS_LEN, ASSET_TRACING_MAP_LEN] at *; omega))

/-- `structs.rs:447-451` -/
def revealAllIdAttributes (m : RevealMap) : RevealMap :=
  (List.finRange ATTRS_LEN).foldl (fun m i => m.set (ASSET_TRACING_MAP_LEN + i.val) true
    (by have := i.isLt; simp only [ATTRS_LEN, ASSET_TRACING_MAP_LEN] at *; omega)) m

/-- the `u64` fold of `structs.rs:455-459` (at most 12 bits, so `u64` cannot overflow) -/
def toNat (m : RevealMap) : ℕ := m.toList.foldl (fun acc x => if x then acc * 2 + 1 else acc * 2) 0

end RevealMap

/-- `structs.rs:875-880` -/
inductive FreezeFlag where
  | unfrozen
  | frozen
deriving DecidableEq, Repr

namespace FreezeFlag

/-- `structs.rs:884-889` -/
def flip : FreezeFlag → FreezeFlag
  | .unfrozen => .frozen
  | .frozen => .unfrozen

/-- `structs.rs:898-905` `From<FreezeFlag> for u8` -/
def toNat : FreezeFlag → ℕ
  | .unfrozen => 0
  | .frozen => 1

/-- `structs.rs:915-921` -/
def serialize (f : FreezeFlag) : List Byte := [UInt8.ofNat f.toNat]

/-- `structs.rs:928-941` -/
def deserialize : Reader FreezeFlag := fun bs => do
  let (b, rest) ← readExact 1 bs
  match b with
  | [0] => .ok (.unfrozen, rest)
  | [1] => .ok (.frozen, rest)
  | _ => .error .invalidData

end FreezeFlag

variable [E : CapEnv]

/-! ### Asset codes (`structs.rs:69-319`) -/

/-- number of bytes of `into_repr()` for the 253- to 255-bit scalar fields, also
`config.rs:51-52` `SCALAR_REPR_BYTE_LEN` -/
def SCALAR_REPR_BYTE_LEN : ℕ := 32
/-- `config.rs:56-57` `PER_ATTR_BYTE_CAPACITY = CAPACITY / 8 - 1` with `CAPACITY` 252, 253 or 254 -/
def PER_ATTR_BYTE_CAPACITY : ℕ := 30

/-- `into_repr().to_bytes_le()` -/
def fToBytes (x : F) : List Byte := leBytes SCALAR_REPR_BYTE_LEN x.val
/-- `from_le_bytes_mod_order` -/
def fFromBytesMod (bs : List Byte) : F := (ofLe bs : F)

/-- `constants.rs:38` b"DOMESTIC_ASSET" -/
def DOM_SEP_DOMESTIC : List Byte := [68, 79, 77, 69, 83, 84, 73, 67, 95, 65, 83, 83, 69, 84]
/-- `constants.rs:41` b"FOREIGN_ASSET" -/
def DOM_SEP_FOREIGN : List Byte := [70, 79, 82, 69, 73, 71, 78, 95, 65, 83, 83, 69, 84]

/-- `structs.rs:235` `AssetCode(C::ScalarField)` -/
abbrev AssetCode := F

/-- `structs.rs:239-241`, `config.rs:58-60` -/
def nativeCode : AssetCode := 1
/-- `structs.rs:244-246`, `config.rs:62-64` -/
def dummyCode : AssetCode := 2

/-- `structs.rs:120-124` `InternalAssetCode::new_internal` -/
def internalCode (seed digest : F) : F := E.prf seed [digest]

/-- `structs.rs:114-117` `InternalAssetCode::new` -/
def internalCodeOfDesc (seed : F) (desc : List Byte) : F := internalCode seed (E.descDigest desc)

/-- `structs.rs:279-286` `new_domestic_from_internal` -/
def domesticFromInternal (internal : F) : AssetCode :=
  E.keccakField (DOM_SEP_DOMESTIC ++ fToBytes internal)

/-- `structs.rs:270-276` `new_domestic_from_digest` -/
def domesticFromDigest (seed digest : F) : AssetCode := domesticFromInternal (internalCode seed digest)

/-- `structs.rs:262-265` `new_domestic` -/
def newDomestic (seed : F) (desc : List Byte) : AssetCode :=
  domesticFromInternal (internalCodeOfDesc seed desc)

/-- `structs.rs:290-296` `new_foreign` -/
def newForeign (desc : List Byte) : AssetCode := E.keccakField (DOM_SEP_FOREIGN ++ desc)

/-- `structs.rs:300-309` `verify_domestic` -/
def verifyDomestic (code : AssetCode) (internal : F) : Res Unit :=
  if domesticFromInternal internal = code then .ok () else .error .failedAssetCodeVerification

/-- `structs.rs:313-319` `verify_foreign` -/
def verifyForeign (code : AssetCode) (desc : List Byte) : Res Unit :=
  if newForeign desc = code then .ok () else .error .failedAssetCodeVerification

/-- `structs.rs:454-460` `RevealMap::to_scalar` -/
def RevealMap.toScalar (m : RevealMap) : F := (m.toNat : F)

/-- `structs.rs:469-482` `RevealMap::hadamard_product` (the `assert!` is a panic) -/
def RevealMap.hadamard (m : RevealMap) (vals : List F) : Res (List F) :=
  if vals.length ≤ VIEWABLE_DATA_LEN then
    .ok (List.zipWith (fun b v => if b then v else 0) m.toList vals)
  else .error .panic

/-! ### Policies and asset definitions (`structs.rs:500-782`) -/

/-- `structs.rs:500-507`.  The keys are `elgamal::EncKey`, `schnorr::VerKey` and a curve point: all
subgroup points. -/
structure AssetPolicy where
  viewer_pk : Pt
  cred_pk : Pt
  freezer_pk : Pt
  reveal_map : RevealMap
  reveal_threshold : Amount
deriving DecidableEq

namespace AssetPolicy

/-- `AssetPolicy::default()` (derived): neutral keys, empty map, threshold 0 -/
def default : AssetPolicy := ⟨0, 0, 0, RevealMap.default, 0⟩

/-- `structs.rs:541-544` `set_reveal_map_for_test` -/
def setRevealMapForTest (s : AssetPolicy) (m : RevealMap) : AssetPolicy := { s with reveal_map := m }
/-- `structs.rs:547-550` -/
def setRevealThreshold (s : AssetPolicy) (t : Amount) : AssetPolicy := { s with reveal_threshold := t }
/-- `structs.rs:553-555` -/
def isRevealThresholdSet (s : AssetPolicy) : Bool := s.reveal_threshold ≠ 0
/-- `structs.rs:558-561` -/
def setViewerPubKey (s : AssetPolicy) (k : Pt) : AssetPolicy := { s with viewer_pk := k }
/-- `structs.rs:564-566` -/
def isViewerPubKeySet (s : AssetPolicy) : Bool := s.viewer_pk ≠ 0
/-- `structs.rs:569-572` -/
def setCredCreatorPubKey (s : AssetPolicy) (k : Pt) : AssetPolicy := { s with cred_pk := k }
/-- `structs.rs:575-577` -/
def isCredCreatorPubKeySet (s : AssetPolicy) : Bool := s.cred_pk ≠ 0
/-- `structs.rs:580-583` -/
def setFreezerPubKey (s : AssetPolicy) (k : Pt) : AssetPolicy := { s with freezer_pk := k }
/-- `structs.rs:586-588` -/
def isFreezerPubKeySet (s : AssetPolicy) : Bool := s.freezer_pk ≠ 0

/-- `structs.rs:593-601` -/
def revealUserAddress (s : AssetPolicy) : Res AssetPolicy :=
  if !s.isViewerPubKeySet then .error .invalidParameter
  else .ok { s with reveal_map := s.reveal_map.revealUserAddress }
/-- `structs.rs:604-606` -/
def isUserAddressRevealed (s : AssetPolicy) : Bool := s.reveal_map.isUserAddressRevealed
/-- `structs.rs:611-621` -/
def revealAmount (s : AssetPolicy) : Res AssetPolicy :=
  if !s.isViewerPubKeySet then .error .invalidParameter
  else .ok { s with reveal_map := s.reveal_map.revealAmount }
/-- `structs.rs:624-626` -/
def isAmountRevealed (s : AssetPolicy) : Bool := s.reveal_map.isAmountRevealed
/-- `structs.rs:631-641` -/
def revealBlindingFactor (s : AssetPolicy) : Res AssetPolicy :=
  if !s.isViewerPubKeySet then .error .invalidParameter
  else .ok { s with reveal_map := s.reveal_map.revealBlindingFactor }
/-- `structs.rs:644-646` -/
def isBlindingFactorRevealed (s : AssetPolicy) : Bool := s.reveal_map.isBlindingFactorRevealed
/-- `structs.rs:652-664` -/
def revealIthAttribute (s : AssetPolicy) (i : ℕ) : Res AssetPolicy :=
  if !s.isViewerPubKeySet then .error .invalidParameter
  else if !s.isCredCreatorPubKeySet then .error .invalidParameter
  else do
    let m ← s.reveal_map.revealIthIdAttribute i
    .ok { s with reveal_map := m }
/-- `structs.rs:669-681` -/
def revealAllAttributes (s : AssetPolicy) : Res AssetPolicy :=
  if !s.isViewerPubKeySet then .error .invalidParameter
  else if !s.isCredCreatorPubKeySet then .error .invalidParameter
  else .ok { s with reveal_map := s.reveal_map.revealAllIdAttributes }
/-- `structs.rs:686-693` -/
def revealRecordOpening (s : AssetPolicy) : Res AssetPolicy := do
  let s ← s.revealUserAddress
  let s ← s.revealAmount
  s.revealBlindingFactor
/-- `structs.rs:699-705` -/
def revealAll (s : AssetPolicy) : Res AssetPolicy := do
  let s ← s.revealRecordOpening
  s.revealAllAttributes

/-- `structs.rs:709-716` -/
def toScalars (s : AssetPolicy) : List F :=
  [s.reveal_map.toScalar, ptX s.viewer_pk, ptY s.viewer_pk, ptX s.cred_pk, ptY s.cred_pk,
   ptX s.freezer_pk, ptY s.freezer_pk, Amount.toF s.reveal_threshold]

end AssetPolicy

/-- `structs.rs:732-737` -/
structure AssetDefinition where
  code : AssetCode
  policy : AssetPolicy
deriving DecidableEq

namespace AssetDefinition

/-- `structs.rs:743-751` -/
def new (code : AssetCode) (policy : AssetPolicy) : Res AssetDefinition :=
  if code = nativeCode ∨ code = dummyCode then .error .invalidParameter else .ok ⟨code, policy⟩
/-- `structs.rs:754-759` -/
def native : AssetDefinition := ⟨nativeCode, AssetPolicy.default⟩
/-- `structs.rs:762-767` -/
def dummy : AssetDefinition := ⟨dummyCode, AssetPolicy.default⟩
/-- `structs.rs:770-772` -/
def isNative (d : AssetDefinition) : Bool := d = native
/-- `structs.rs:775-777` -/
def isDummy (d : AssetDefinition) : Bool := d = dummy

end AssetDefinition

/-! ### Record openings (`structs.rs:955-1056`) -/

/-- `keys.rs:93-96` `UserPubKey` -/
structure UserPubKey where
  address : Pt
  enc_key : E.AeadPk
deriving DecidableEq

/-- `structs.rs:955-966` -/
structure RecordOpening where
  amount : Amount
  asset_def : AssetDefinition
  pub_key : UserPubKey
  freeze_flag : FreezeFlag
  blind : F
deriving DecidableEq

namespace RecordOpening

/-- `structs.rs:1014-1016` -/
def isDummy (ro : RecordOpening) : Bool := ro.asset_def.isDummy

/-- `structs.rs:1021-1055`, the twelve scalars that are committed to -/
def scalars (ro : RecordOpening) : List F :=
  [ Amount.toF ro.amount, ro.asset_def.code,
    ptX ro.pub_key.address, ptY ro.pub_key.address,
    ptX ro.asset_def.policy.viewer_pk, ptY ro.asset_def.policy.viewer_pk,
    ptX ro.asset_def.policy.cred_pk, ptY ro.asset_def.policy.cred_pk,
    ptX ro.asset_def.policy.freezer_pk, ptY ro.asset_def.policy.freezer_pk,
    2 * ro.asset_def.policy.reveal_map.toScalar + (ro.freeze_flag.toNat : F),
    Amount.toF ro.asset_def.policy.reveal_threshold ]

/-- `structs.rs:1021-1055` `derive_record_commitment` -/
def commitment (ro : RecordOpening) : F := E.commit ro.scalars ro.blind

end RecordOpening

/-! ### Identity attributes and credentials (`structs.rs:1082-1254`) -/

/-- `structs.rs:1082` `IdentityAttribute(C::ScalarField)` -/
abbrev IdentityAttribute := F

/-- `structs.rs:1086-1102` -/
def IdentityAttribute.new (v : List Byte) : Res IdentityAttribute :=
  if v.length > PER_ATTR_BYTE_CAPACITY ∨ v = [] then .error .invalidParameter
  else
    let padVal := SCALAR_REPR_BYTE_LEN - v.length
    let padded := v ++ List.replicate (SCALAR_REPR_BYTE_LEN - 1 - v.length) (UInt8.ofNat padVal)
    .ok (fFromBytesMod padded)

/-- `structs.rs:1105-1120`; the subtraction `SCALAR_REPR_BYTE_LEN - pad_len` on `usize` panics when it
underflows (in a debug build; in a release build it wraps and `truncate` keeps everything, see
`valueRelease`). -/
def IdentityAttribute.value (a : IdentityAttribute) : Res (List Byte) :=
  let bs := fToBytes a
  if bs[31]? ≠ some 0 then .error .invalidAttribute
  else match bs[30]? with
    | none => .error .panic
    | some padLen =>
      if SCALAR_REPR_BYTE_LEN < padLen.toNat then .error .panic
      else .ok (bs.take (SCALAR_REPR_BYTE_LEN - padLen.toNat))

/-- `structs.rs:1105-1120` in a release build: the `usize` subtraction wraps modulo 2^64. -/
def IdentityAttribute.valueRelease (a : IdentityAttribute) : Res (List Byte) :=
  let bs := fToBytes a
  if bs[31]? ≠ some 0 then .error .invalidAttribute
  else match bs[30]? with
    | none => .error .panic
    | some padLen => .ok (bs.take ((SCALAR_REPR_BYTE_LEN + 2 ^ 64 - padLen.toNat) % 2 ^ 64))

/-- `structs.rs:1160-1166` -/
structure ExpirableCredential where
  user_addr : Pt
  attrs : List IdentityAttribute
  expiry : U64
  cred : E.Sig
  creator_pk : Pt

namespace ExpirableCredential

/-- the signed message of `structs.rs:1193-1198` and `structs.rs:1226-1230` -/
def msg (expiry : U64) (user_addr : Pt) (attrs : List IdentityAttribute) : List F :=
  [(expiry.val : F), ptX user_addr, ptY user_addr] ++ attrs

/-- `structs.rs:1179-1208`; `sk` is the secret key of the `CredIssuerKeyPair` -/
def create (user_addr : Pt) (attrs : List IdentityAttribute) (expiry : U64) (sk : Fr) :
    Res ExpirableCredential :=
  if attrs.length ≠ ATTRS_LEN then .error .failedCredentialCreation
  else .ok
    { user_addr, attrs, expiry, cred := E.schnorrSign sk (msg expiry user_addr attrs),
      creator_pk := smulFr sk E.gen }

/-- `structs.rs:1211-1213` -/
def isExpired (c : ExpirableCredential) (now : U64) : Bool := c.expiry < now

/-- `structs.rs:1219-1233`, with `keys.rs:258-273` -/
def verify (c : ExpirableCredential) (now : U64) : Res Unit :=
  if c.isExpired now then .error .failedCredentialVerification
  else if E.schnorrVerify (E.xy c.creator_pk) (msg c.expiry c.user_addr c.attrs) c.cred then .ok ()
  else .error .failedCredentialVerification

/-- `structs.rs:1142-1146` `default_vector` -/
def defaultVector : List IdentityAttribute := List.replicate ATTRS_LEN 0

/-- `structs.rs:1236-1248`: default user, default issuer key pair (secret key 0), expiry `2^20 - 1` -/
def dummyUnexpired : Res ExpirableCredential :=
  match create 0 defaultVector (Fin.ofNat (2 ^ 64) (2 ^ MAX_TIMESTAMP_LEN - 1)) 0 with
  | .ok c => .ok c
  | .error _ => .error .internalError

end ExpirableCredential

end Cap
