/-
Little-endian byte strings and the reader interface of `ark_serialize`.
-/
import Verif.Model.Env

namespace Cap

/-- `to_le_bytes` for a `len`-byte unsigned integer -/
def leBytes : ℕ → ℕ → List Byte
  | 0, _ => []
  | len + 1, n => UInt8.ofNat (n % 256) :: leBytes len (n / 256)

/-- `from_le_bytes` -/
def ofLe : List Byte → ℕ
  | [] => 0
  | b :: bs => b.toNat + 256 * ofLe bs

/-- `ark_serialize::SerializationError`, the two cases that occur: end of input (an `IoError`) and
`InvalidData`.  `panic` is a panic of the reader; only `Model/Serde.lean` has one. -/
inductive SerErr where
  | io
  | invalidData
  | panic
deriving DecidableEq, Repr

/-- A `CanonicalDeserialize` implementation: consumes a prefix of the input. -/
abbrev Reader (α : Type) := List Byte → Except SerErr (α × List Byte)

/-- `Read::read_exact` with a buffer of `n` bytes -/
def readExact (n : ℕ) : Reader (List Byte) := fun bs =>
  if bs.length < n then .error .io else .ok (bs.take n, bs.drop n)

end Cap
