/-
Model of `/repo/src/keys.rs`: key pairs, nullifier keys, ElGamal encryption to viewers, user signatures.
-/
import Verif.Model.Structs

namespace Cap

variable [E : CapEnv]

/-! ### Nullifiers -/

/-- `keys.rs:558-569` `compute_nullifier_key`: Rescue hash of the Diffie-Hellman shared point -/
def computeNullifierKey (pk : Pt) (sk : Fr) : F :=
  E.hash3 (ptX (smulFr sk pk)) (ptY (smulFr sk pk)) 0

/-- `keys.rs:589-596` `NullifierKey::nullify` -/
def nullifyWithKey (nk : F) (uid : U64) (rc : F) : F := E.prf nk [(uid.val : F), rc]

/-- `keys.rs:171-174` `UserKeyPair`.  `schnorr::KeyPair` holds the secret key and the derived public
key; only the former is kept here. -/
structure UserKeyPair where
  sk : Fr
  encSk : E.AeadSk

namespace UserKeyPair

/-- `keys.rs:197-199` -/
def address (k : UserKeyPair) : Pt := smulFr k.sk E.gen

/-- `keys.rs:189-194` -/
def pubKey (k : UserKeyPair) : UserPubKey := ⟨k.address, E.aeadPk k.encSk⟩

/-- `keys.rs:234-240` -/
def deriveNullifierKey (k : UserKeyPair) (fpk : Pt) : F :=
  if fpk = 0 then frToFq k.sk else computeNullifierKey fpk k.sk

/-- `keys.rs:213-220` -/
def nullify (k : UserKeyPair) (fpk : Pt) (uid : U64) (rc : F) : F :=
  nullifyWithKey (k.deriveNullifierKey fpk) uid rc

/-- `keys.rs:223-229` -/
def sign (k : UserKeyPair) (msg : List Byte) : E.Sig := E.schnorrSign k.sk [E.hashToField msg]

end UserKeyPair

/-- `keys.rs:134-152` `UserPubKey::verify_sig` -/
def UserPubKey.verifySig (pk : UserPubKey) (msg : List Byte) (sig : E.Sig) : Res Unit :=
  if E.schnorrVerify (E.xy pk.address) [E.hashToField msg] sig then .ok () else .error .failedPrimitives

/-- `keys.rs:494-497` `FreezerKeyPair` -/
structure FreezerKeyPair where
  sec_key : Fr
  pub_key : Pt

namespace FreezerKeyPair

/-- `keys.rs:501-511` `generate`, with the drawn scalar as parameter -/
def generate (s : Fr) : FreezerKeyPair := ⟨s, smulFr s E.gen⟩

/-- `keys.rs:539-541` -/
def deriveNullifierKey (k : FreezerKeyPair) (addr : Pt) : F := computeNullifierKey addr k.sec_key

/-- `keys.rs:523-530` -/
def nullify (k : FreezerKeyPair) (addr : Pt) (uid : U64) (rc : F) : F :=
  nullifyWithKey (k.deriveNullifierKey addr) uid rc

end FreezerKeyPair

/-! ### ElGamal encryption to viewers -/

/-- jf-primitives `elgamal::Ciphertext`, which is `structs.rs:1268` `ViewableMemo` -/
structure ViewableMemo where
  ephemeral : Pt
  data : List F
deriving DecidableEq

/-- adding the keystream to a message, block `i` onwards -/
def applyStream (ks : ℕ → F) : ℕ → List F → List F
  | _, [] => []
  | i, m :: ms => (m + ks i) :: applyStream ks (i + 1) ms

/-- subtracting the keystream from a ciphertext, block `i` onwards -/
def removeStream (ks : ℕ → F) : ℕ → List F → List F
  | _, [] => []
  | i, c :: cs => (c - ks i) :: removeStream ks (i + 1) cs

/-- `keys.rs:338-344` `ViewerPubKey::encrypt` = jf-primitives `EncKey::deterministic_encrypt` (hybrid
ElGamal: ephemeral key `[ρ]G`, stream cipher keyed by `[ρ]pk`) -/
def viewerEncrypt (pk : Pt) (rand : Fr) (msg : List F) : ViewableMemo :=
  { ephemeral := smulFr rand E.gen,
    data := applyStream (E.keystream (E.xy (smulFr rand pk))) 0 msg }

/-- `keys.rs:358` `ViewerKeyPair`, secret scalar only -/
structure ViewerKeyPair where
  sk : Fr

/-- `keys.rs:369-371` -/
def ViewerKeyPair.pubKey (k : ViewerKeyPair) : Pt := smulFr k.sk E.gen

/-- `keys.rs:374-376` -/
def ViewerKeyPair.decrypt (k : ViewerKeyPair) (memo : ViewableMemo) : List F :=
  removeStream (E.keystream (E.xy (smulFr k.sk memo.ephemeral))) 0 memo.data

end Cap
