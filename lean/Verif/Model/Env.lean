/-
External primitives of CAP and the error type.

Everything the Rust code gets from other crates (arkworks fields and curves, jf-primitives hashing,
encryption, signatures and Merkle trees, jf-plonk) is a field of the class `CapEnv`.  The laws that are
fields of the class are the only facts assumed about them; see DESIGN.md, "Trusted base".
-/
import Mathlib.Data.ZMod.Basic
import Mathlib.Algebra.Module.NatInt
import Mathlib.Tactic.Ring

namespace Cap

/-- A byte. -/
abbrev Byte := UInt8

/-- `errors.rs:25-66` `TxnApiError`, without the message strings, plus an explicit value for a Rust
panic (index out of bounds, arithmetic overflow, `assert!`, `unwrap`). -/
inductive Err where
  | failedPrimitives
  | failedSnark
  | failedConstraintSystem
  | failedAssetCodeVerification
  | failedCredentialCreation
  | failedCredentialVerification
  | failedTransactionVerification
  | failedSerialization
  | failedReceiverMemoSignature
  | failedTxMemoSignature
  | failedViewableMemoDecryption
  | ioError
  | invalidParameter
  | deserializationError
  | incorrectFee
  | parametersGenerationError
  | internalError
  | invalidAttribute
  | panic
deriving DecidableEq, Repr

/-- Rust `Result<T, TxnApiError>` where a panic is the error `Err.panic`. -/
abbrev Res (α : Type) := Except Err α

/-- `if !cond { return Err(e) }`. -/
def ensure (cond : Bool) (e : Err) : Res Unit := if cond then .ok () else .error e

/-- `constants.rs:28` -/
def ATTRS_LEN : ℕ := 8
/-- `constants.rs:17` -/
def REVEAL_MAP_LEN : ℕ := 3 + ATTRS_LEN
/-- `constants.rs:20` -/
def ASSET_TRACING_MAP_LEN : ℕ := 4
/-- `constants.rs:25` -/
def VIEWABLE_DATA_LEN : ℕ := REVEAL_MAP_LEN + 1
/-- `constants.rs:32` -/
def MAX_TIMESTAMP_LEN : ℕ := 20
/-- `constants.rs:35` -/
def AMOUNT_LEN : ℕ := 127

/-- How the crate is compiled: with overflow checks (an unchecked operation that overflows panics) or
without (it wraps). -/
inductive Build where
  | debug
  | release
deriving DecidableEq, Repr

/-- `structs.rs:165` `Amount(u128)`. -/
abbrev Amount := Fin (2 ^ 128)

/-- `u64`, used for timestamps, leaf indices (uid) and `valid_until`. -/
abbrev U64 := Fin (2 ^ 64)

instance : NeZero (2 ^ 128 : ℕ) := ⟨by decide⟩
instance : NeZero (2 ^ 64 : ℕ) := ⟨by decide⟩

/-- The external primitives, `config.rs:25-70` `CapConfig` together with the functions CAP calls in
jf-primitives, jf-relation, jf-plonk and sha3.

`p` is the order of `CapConfig::ScalarField`, `r` the order of `EmbeddedCurveScalarField`.  The bounds
hold of the three configurations in `config.rs` (bn254: 254/251 bits, bls12-377: 253/251 bits,
bls12-381: 255/252 bits).

Points held by Rust structs (`Pt`) are elements of the prime-order subgroup of the embedded curve: the
constructors and decoders of arkworks check this.  Points inside a circuit are pairs of coordinates that
need not lie on the curve (`PtV` below).  Hashes, signatures and ciphertext keys are abstract. -/
class CapEnv where
  /-- order of the scalar field -/
  p : ℕ
  /-- order of the embedded curve's scalar field -/
  r : ℕ
  p_gt : 2 ^ 252 < p
  p_lt : p < 2 ^ 256
  /-- `p` is an odd prime; only oddness is used -/
  p_odd : p % 2 = 1
  r_gt : 2 ^ 250 < r
  r_lt : r < p
  /-- the prime-order subgroup of the embedded (Jubjub-like) curve -/
  Pt : Type
  ptGroup : AddCommGroup Pt
  ptDec : DecidableEq Pt
  /-- `prime_subgroup_generator()` -/
  gen : Pt
  /-- every subgroup point is killed by `r` -/
  r_smul : ∀ P : Pt, r • P = 0
  /-- the generator has order exactly `r` -/
  gen_inj : ∀ a b : ℕ, a < r → b < r → a • gen = b • gen → a = b
  /-- affine coordinates -/
  xy : Pt → ZMod p × ZMod p
  /-- `GroupAffine::new(x, y)` followed by `is_on_curve` and the subgroup check (`structs.rs:1449-1450`) -/
  ofXY : ZMod p × ZMod p → Option Pt
  ofXY_iff : ∀ c P, ofXY c = some P ↔ xy P = c
  /-- the neutral element of a twisted Edwards curve is `(0, 1)` -/
  xy_zero : xy 0 = (0, 1)
  /-- `(0, 0)` does not satisfy `a x² + y² = 1 + d x² y²` -/
  xy_ne : ∀ P, xy P ≠ (0, 0)
  /-- jf-relation `variable_base_scalar_mul` on arbitrary coordinates: scalar (its canonical
  representative), base -/
  ecMul : ℕ → ZMod p × ZMod p → ZMod p × ZMod p
  /-- on points of the subgroup the gadget is scalar multiplication -/
  ecMul_xy : ∀ n P, ecMul n (xy P) = xy (n • P)
  /-- the number of bits the scalar multiplication gadgets decompose a scalar into -/
  scalarBits : ℕ
  /-- every scalar of the embedded curve fits -/
  r_le_bits : r ≤ 2 ^ scalarBits
  /-- jf-primitives `Commitment::commit` (Rescue based): message, blinding -/
  commit : List (ZMod p) → ZMod p → ZMod p
  /-- jf-primitives `PRF::eval` with one output: key, input -/
  prf : ZMod p → List (ZMod p) → ZMod p
  /-- Rescue `sponge_no_padding` on three elements with one output (`hash_3_to_1`) -/
  hash3 : ZMod p → ZMod p → ZMod p → ZMod p
  /-- `AssetCodeDigest::from_description` up to its name: `hash_to_field` then a Rescue sponge -/
  descDigest : List Byte → ZMod p
  /-- Keccak256 followed by `from_le_bytes_mod_order` -/
  keccakField : List Byte → ZMod p
  /-- Merkle leaf value for (uid, element) -/
  leafHash : ZMod p → ZMod p → ZMod p
  /-- 3-ary Merkle node hash -/
  nodeHash : ZMod p → ZMod p → ZMod p → ZMod p
  /-- keystream of the hybrid ElGamal encryption: coordinates of the shared point, block index -/
  keystream : ZMod p × ZMod p → ℕ → ZMod p
  /-- the viewer key `ViewerPubKey::random` draws from the ChaCha stream seeded by the hash of the
  randomizer (`structs.rs:1408-1412`) -/
  randViewerPk : ZMod r → Pt
  /-- Schnorr signatures on field elements -/
  Sig : Type
  sigDec : DecidableEq Sig
  /-- secret key, message -/
  schnorrSign : ZMod r → List (ZMod p) → Sig
  /-- coordinates of the verification key, message, signature -/
  schnorrVerify : ZMod p × ZMod p → List (ZMod p) → Sig → Bool
  schnorr_correct : ∀ sk m, schnorrVerify (xy (sk.val • gen)) m (schnorrSign sk m) = true
  /-- `hash_to_field` on bytes -/
  hashToField : List Byte → ZMod p
  /-- AEAD encryption keys, decryption keys and ciphertexts (jf-primitives `aead`) -/
  AeadPk : Type
  AeadSk : Type
  AeadCt : Type
  aeadPkDec : DecidableEq AeadPk
  aeadPkDefault : AeadPk
  aeadPk : AeadSk → AeadPk
  /-- key, randomness, message, associated data; `none` models an encryption error -/
  aeadEnc : AeadPk → ℕ → List Byte → List Byte → Option AeadCt
  aeadDec : AeadSk → AeadCt → List Byte → Option (List Byte)
  aead_correct : ∀ sk ρ m l c, aeadEnc (aeadPk sk) ρ m l = some c → aeadDec sk c l = some m
  /-- canonical serialization of a `schnorr::VerKey`: a fixed number of bytes, injective -/
  verKeyBytes : Pt → List Byte
  verKeyBytes_len : ∀ P, (verKeyBytes P).length = 32
  verKeyBytes_inj : ∀ P Q, verKeyBytes P = verKeyBytes Q → P = Q
  /-- canonical serialization of an `aead::Ciphertext`: not empty, and self-delimiting (its deserializer
  knows where it ends) -/
  memoBytes : AeadCt → List Byte
  memoBytes_ne : ∀ c, memoBytes c ≠ []
  memoBytes_prefix : ∀ c c' x y, memoBytes c ++ x = memoBytes c' ++ y → c = c' ∧ x = y

export CapEnv (Pt)

variable [E : CapEnv]

/-- `CapConfig::ScalarField` -/
abbrev F : Type := ZMod E.p
/-- `CapConfig::EmbeddedCurveScalarField` -/
abbrev Fr : Type := ZMod E.r

instance : AddCommGroup Pt := E.ptGroup
instance : DecidableEq Pt := E.ptDec
instance : DecidableEq E.Sig := E.sigDec
instance : NeZero E.p := ⟨by have := E.p_gt; omega⟩
instance : NeZero E.r := ⟨by have := E.r_gt; omega⟩
instance : DecidableEq E.AeadPk := E.aeadPkDec

/-- a point variable of a circuit: two coordinates, not constrained to be on the curve -/
abbrev PtV : Type := F × F
/-- `neutral_point_variable()` -/
def neutral : PtV := (0, 1)

/-- x coordinate of a point -/
def ptX (P : Pt) : F := (E.xy P).1
/-- y coordinate of a point -/
def ptY (P : Pt) : F := (E.xy P).2

/-- `[s]P` for a scalar of the embedded curve -/
def smulFr (s : Fr) (P : Pt) : Pt := s.val • P

/-- jf-utils `fr_to_fq`: reinterpret a scalar of the embedded curve in the (larger) scalar field. -/
def frToFq (s : Fr) : F := (s.val : F)

/-- The scalar-multiplication gadgets accept a scalar if its canonical representative fits in
`scalarBits` bits. -/
def okScalar (s : F) : Prop := s.val < 2 ^ E.scalarBits
instance (s : F) : Decidable (okScalar s) := inferInstanceAs (Decidable (_ < _))

/-- An amount as a field element, `C::ScalarField::from(u128)`. -/
def Amount.toF (a : Amount) : F := (a.val : F)

end Cap
