/-
Model of the universal parameter in `/repo/src/parameters.rs`, `/repo/src/proof/mod.rs` and `/repo/src/bin/gen-parameters.rs`: made,
stored in files, loaded.

The parameter itself (`UniversalSrs` of jf-plonk) is external.
-/
import Verif.Model.Params

namespace Cap

/-- jf-plonk's universal parameters, their encoding, SHA-256, and the file that is compiled into the library. -/
class SrsEnv where
  Srs : Type
  /-- `PlonkKzgSnark::universal_setup`: a seed of the random number generator and a degree -/
  setup : ℕ → ℕ → Option Srs
  srsBytes : Srs → List Byte
  srsRead : List Byte → Option (Srs × List Byte)
  srsRead_bytes : ∀ s t, srsRead (srsBytes s ++ t) = some (s, t)
  sha256 : List Byte → List Byte
  /-- the contents of `data/aztec-crs-131072.bin` -/
  shipped : List Byte

variable [R : SrsEnv]

/-- the cargo feature that chooses the curve: `bn254` (the default) or one of the others -/
inductive Curve where
  | bn254
  | other
deriving DecidableEq

/-- the seed of `ark_std::test_rng()`: it is fixed -/
def testSeed : ℕ := 0

/-- `proof/mod.rs:59-69` `universal_setup` -/
def universalSetup (seed max_degree : ℕ) : Res R.Srs :=
  match R.setup seed max_degree with
  | some s => .ok s
  | none => .error .failedSnark

/-- `CanonicalDeserialize` of a parameter; trailing bytes are ignored -/
def srsParse (b : List Byte) : Option R.Srs := (R.srsRead b).map Prod.fst

/-- the digest of `proof/mod.rs:100` -/
def shippedDigest : List Byte :=
  [0x6b, 0x81, 0xe7, 0x5f, 0xb9, 0xc1, 0x4f, 0xd0, 0xe5, 0x8f, 0xb2, 0xb2, 0x9e, 0x48, 0x97, 0x8c,
   0xda, 0xd5, 0x51, 0x15, 0x03, 0x68, 0x5a, 0x61, 0xf1, 0x39, 0x1d, 0xc4, 0xa4, 0xfc, 0x7c, 0xbf]

/-- `proof/mod.rs:74-109` `load_srs` -/
def loadSrs (max_degree : ℕ) : Res R.Srs :=
  if max_degree > 2 ^ 17 then .error .failedSnark
  else if R.sha256 R.shipped ≠ shippedDigest then .error .panic
  else
    match srsParse R.shipped with
    | some s => .ok s
    | none => .error .deserializationError

/-- `proof/mod.rs:121-141` `universal_setup_for_staging`, for both settings of the feature -/
def universalSetupForStaging (curve : Curve) (seed max_degree : ℕ) : Res R.Srs :=
  match curve with
  | .bn254 => loadSrs max_degree
  | .other => universalSetup seed max_degree

omit R in
/-- `default_path(DEFAULT_UNIVERSAL_SRS_FILENAME, "bin")`, `parameters.rs:37`, `parameters.rs:55`, `parameters.rs:84` -/
def defaultSrsPath (dir : FilePath) : FilePath := defaultPath dir "universal_srs".toList

/-- `parameters.rs:47-66` `store_universal_parameter_for_demo` -/
def storeUniversalParameterForDemo (dir : FilePath) (disk : Disk) (max_degree : ℕ) (dest : Option FilePath) :
    Res Disk := do
  let param ← universalSetup testSeed max_degree
  disk.storeBytes (R.srsBytes param) (dest.getD (defaultSrsPath dir))

/-- `parameters.rs:81-91` `load_default_universal_parameters`, for both settings of the feature -/
def loadDefaultUniversalParameters (curve : Curve) (dir : FilePath) (disk : Disk) : Res R.Srs :=
  match curve with
  | .bn254 => loadSrs (2 ^ 17)
  | .other => disk.load srsParse (defaultSrsPath dir)

/-- `parameters.rs:93-104` (and `parameters.rs:68-79` `load_universal_parameters_from_path`) `load_universal_parameter` -/
def loadUniversalParameter (curve : Curve) (dir : FilePath) (disk : Disk) (src : Option FilePath) : Res R.Srs :=
  match src with
  | some src => disk.load srsParse src
  | none => loadDefaultUniversalParameters curve dir disk

/-- `bin/gen-parameters.rs:99-101`: the action `universal-srs` (`unwrap` of an error is a panic) -/
def genUniversalSrs (dir : FilePath) (disk : Disk) (size : ℕ) (dest : Option FilePath) : Res Disk :=
  match storeUniversalParameterForDemo dir disk size dest with
  | .ok disk => .ok disk
  | .error _ => .error .panic

/-- `bin/gen-parameters.rs:79`: the parameter the action `prover-srs` makes keys with -/
def proverSrsParameter (curve : Curve) (dir : FilePath) (disk : Disk) (universal_srs_path : Option FilePath) :
    Res R.Srs :=
  match loadUniversalParameter curve dir disk universal_srs_path with
  | .ok s => .ok s
  | .error _ => .error .panic

end Cap
