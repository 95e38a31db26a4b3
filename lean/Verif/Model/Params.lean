/-
Model of `/repo/src/parameters.rs` (keys stored in files) and of `/repo/src/bin/gen-parameters.rs`.

The file system is a map from paths to contents.  The encoding of the keys of jf-plonk is external (`KeyCodec`); the
encoding of CAP's own key structures around them is modelled.
-/
import Verif.Model.Proof
import Mathlib.Data.Nat.Digits.Lemmas

namespace Cap

variable [E : CapEnv] [S : CapExt]

/-- arkworks' `CanonicalSerialize`/`CanonicalDeserialize` for the keys of jf-plonk.  A reader takes the bytes of one value
and leaves the rest. -/
class KeyCodec where
  pkBytes : S.Pk → List Byte
  pkRead : List Byte → Option (S.Pk × List Byte)
  pkRead_bytes : ∀ k t, pkRead (pkBytes k ++ t) = some (k, t)
  vkBytes : S.Vk → List Byte
  vkRead : List Byte → Option (S.Vk × List Byte)
  vkRead_bytes : ∀ k t, vkRead (vkBytes k ++ t) = some (k, t)
  /-- a reader takes as many bytes as the value it returns has -/
  pkRead_length : ∀ b k t, pkRead b = some (k, t) → (pkBytes k).length + t.length = b.length
  /-- a proving key contains its verifying key, and more (jf-plonk `ProvingKey`) -/
  vk_lt_pk : ∀ sh pk vk, S.preprocess sh = some (pk, vk) → (vkBytes vk).length < (pkBytes pk).length

/-! ### The encoding of the key structures -/

/-- arkworks: `usize` as eight bytes, least significant first (`u64`) -/
def usizeBytes (n : ℕ) : List Byte := (List.range 8).map (fun i => UInt8.ofNat (n / 256 ^ i % 256))

/-- the value of a list of bytes, least significant first -/
def bytesValue : List Byte → ℕ
  | [] => 0
  | b :: bs => b.toNat + 256 * bytesValue bs

/-- arkworks: reading a `usize` -/
def usizeRead (b : List Byte) : Option (ℕ × List Byte) :=
  if b.length < 8 then none else some (bytesValue (b.take 8), b.drop 8)

/-- arkworks: reading a `u8` -/
def u8Read : List Byte → Option (Fin 256 × List Byte)
  | [] => none
  | b :: bs => some (⟨b.toNat, b.toNat_lt⟩, bs)

/-- arkworks: a `u8` -/
def u8Bytes (x : Fin 256) : List Byte := [UInt8.ofNat x.val]

variable [K : KeyCodec]

/-- `derive(CanonicalSerialize)`, `proof/transfer.rs:55-64` -/
def TransferProvingKey.bytes (k : TransferProvingKey) : List Byte :=
  K.pkBytes k.key ++ usizeBytes k.n_inputs ++ usizeBytes k.n_outputs ++ u8Bytes k.tree_depth

/-- `derive(CanonicalDeserialize)`, `proof/transfer.rs:55-64`; trailing bytes are ignored by `T::deserialize(&bytes[..])`
(`parameters.rs:574`) -/
def TransferProvingKey.parse (b : List Byte) : Option TransferProvingKey := do
  let (key, b) ← K.pkRead b
  let (n_inputs, b) ← usizeRead b
  let (n_outputs, b) ← usizeRead b
  let (tree_depth, _) ← u8Read b
  some ⟨key, n_inputs, n_outputs, tree_depth⟩

/-- `derive(CanonicalSerialize)`, `proof/transfer.rs:80-95` -/
def TransferVerifyingKey.bytes (k : TransferVerifyingKey) : List Byte :=
  K.vkBytes k.key ++ usizeBytes k.n_inputs ++ usizeBytes k.n_outputs ++ u8Bytes k.tree_depth

/-- `derive(CanonicalDeserialize)`, `proof/transfer.rs:80-95` -/
def TransferVerifyingKey.parse (b : List Byte) : Option TransferVerifyingKey := do
  let (key, b) ← K.vkRead b
  let (n_inputs, b) ← usizeRead b
  let (n_outputs, b) ← usizeRead b
  let (tree_depth, _) ← u8Read b
  some ⟨key, n_inputs, n_outputs, tree_depth⟩

/-- `derive(CanonicalSerialize)`, `proof/mint.rs:45-52` -/
def MintProvingKey.bytes (k : MintProvingKey) : List Byte := K.pkBytes k.key ++ u8Bytes k.tree_depth

/-- `derive(CanonicalDeserialize)`, `proof/mint.rs:45-52` -/
def MintProvingKey.parse (b : List Byte) : Option MintProvingKey := do
  let (key, b) ← K.pkRead b
  let (tree_depth, _) ← u8Read b
  some ⟨key, tree_depth⟩

/-- `derive(CanonicalSerialize)`, `proof/mint.rs:56-63` -/
def MintVerifyingKey.bytes (k : MintVerifyingKey) : List Byte := K.vkBytes k.key ++ u8Bytes k.tree_depth

/-- `derive(CanonicalDeserialize)`, `proof/mint.rs:56-63` -/
def MintVerifyingKey.parse (b : List Byte) : Option MintVerifyingKey := do
  let (key, b) ← K.vkRead b
  let (tree_depth, _) ← u8Read b
  some ⟨key, tree_depth⟩

/-- `derive(CanonicalSerialize)`, `proof/freeze.rs:44-52` -/
def FreezeProvingKey.bytes (k : FreezeProvingKey) : List Byte :=
  K.pkBytes k.key ++ u8Bytes k.tree_depth ++ usizeBytes k.num_input

/-- `derive(CanonicalDeserialize)`, `proof/freeze.rs:44-52` -/
def FreezeProvingKey.parse (b : List Byte) : Option FreezeProvingKey := do
  let (key, b) ← K.pkRead b
  let (tree_depth, b) ← u8Read b
  let (num_input, _) ← usizeRead b
  some ⟨key, tree_depth, num_input⟩

/-- `derive(CanonicalSerialize)`, `proof/freeze.rs:67-75` -/
def FreezeVerifyingKey.bytes (k : FreezeVerifyingKey) : List Byte :=
  K.vkBytes k.key ++ u8Bytes k.tree_depth ++ usizeBytes k.num_input

/-- `derive(CanonicalDeserialize)`, `proof/freeze.rs:67-75` -/
def FreezeVerifyingKey.parse (b : List Byte) : Option FreezeVerifyingKey := do
  let (key, b) ← K.vkRead b
  let (tree_depth, b) ← u8Read b
  let (num_input, _) ← usizeRead b
  some ⟨key, tree_depth, num_input⟩

/-! ### Files and paths -/

/-- A path, as its characters.  (Two different character strings are taken to be two different files.) -/
abbrev FilePath := List Char

/-- What the process sees of the file system: the contents of files, and where files can be created. -/
structure Disk where
  content : FilePath → Option (List Byte)
  writable : FilePath → Bool

omit E S K in
/-- `parameters.rs:579-582` `store_bytes`: the file is created or truncated, and written.  (A disk that fills up while
writing is not modelled.) -/
def Disk.storeBytes (disk : Disk) (bytes : List Byte) (dest : FilePath) : Res Disk :=
  if disk.writable dest then
    .ok { disk with content := fun p => if p = dest then some bytes else disk.content p }
  else .error .ioError

omit E S K in
/-- `parameters.rs:584-592` `load_bytes` and `parameters.rs:569-576` `load_data` -/
def Disk.load {α : Type} (disk : Disk) (parse : List Byte → Option α) (src : FilePath) : Res α :=
  match disk.content src with
  | none => .error .ioError
  | some bytes =>
    match parse bytes with
    | none => .error .deserializationError
    | some a => .ok a

omit E S K in
/-- `{}` of an unsigned number -/
def decimal (n : ℕ) : List Char :=
  if n = 0 then ['0'] else (Nat.digits 10 n).reverse.map (fun k => Char.ofNat (48 + k))

omit E S K in
/-- `parameters.rs:485-492` `default_path`; `dir` is the value of `CAP_UNIV_PARAM_DIR`, or `.`; the file names used
contain no dot, so that `set_extension` appends the extension -/
def defaultPath (dir : FilePath) (filename : List Char) : FilePath :=
  dir ++ "/data/".toList ++ filename ++ ".bin".toList

omit E S K in
/-- the file names of `parameters.rs:494-558` -/
def keyFileName (kind role : List Char) (num_input num_output : ℕ) (tree_depth : Fin 256) : List Char :=
  kind ++ role ++ decimal num_input ++ "_input_".toList ++ decimal num_output ++ "_output_".toList ++
    decimal tree_depth.val ++ "_depth".toList

omit E S K in
/-- `parameters.rs:494-506` -/
def defaultTransferProvingKeyPath (dir : FilePath) (n m : ℕ) (d : Fin 256) : FilePath :=
  defaultPath dir (keyFileName "transfer".toList "_prover_".toList n m d)

omit E S K in
/-- `parameters.rs:508-513` -/
def defaultMintProvingKeyPath (dir : FilePath) (d : Fin 256) : FilePath :=
  defaultPath dir (keyFileName "mint".toList "_prover_".toList 1 2 d)

omit E S K in
/-- `parameters.rs:515-523` -/
def defaultFreezeProvingKeyPath (dir : FilePath) (n : ℕ) (d : Fin 256) : FilePath :=
  defaultPath dir (keyFileName "freeze".toList "_prover_".toList n n d)

omit E S K in
/-- `parameters.rs:525-537` -/
def defaultTransferVerifyingKeyPath (dir : FilePath) (n m : ℕ) (d : Fin 256) : FilePath :=
  defaultPath dir (keyFileName "transfer".toList "_verifier_".toList n m d)

omit E S K in
/-- `parameters.rs:539-547` -/
def defaultMintVerifyingKeyPath (dir : FilePath) (d : Fin 256) : FilePath :=
  defaultPath dir (keyFileName "mint".toList "_verifier_".toList 1 2 d)

omit E S K in
/-- `parameters.rs:549-557` -/
def defaultFreezeVerifyingKeyPath (dir : FilePath) (n : ℕ) (d : Fin 256) : FilePath :=
  defaultPath dir (keyFileName "freeze".toList "_verifier_".toList n n d)

/-! ### Storing and loading -/

/-- `parameters.rs:113-153` `store_transfer_proving_key` -/
def storeTransferProvingKey (dir : FilePath) (disk : Disk) (n m : ℕ) (d : Fin 256) (dest : Option FilePath) :
    Res Disk := do
  let (pk, vk) ← transferPreprocess n m d
  let disk ← disk.storeBytes pk.bytes (dest.getD (defaultTransferProvingKeyPath dir n m d))
  disk.storeBytes vk.bytes (dest.getD (defaultTransferVerifyingKeyPath dir n m d))

/-- `parameters.rs:158-177` `load_transfer_proving_key` -/
def loadTransferProvingKey (dir : FilePath) (disk : Disk) (n m : ℕ) (d : Fin 256) (src : Option FilePath) :
    Res TransferProvingKey :=
  disk.load TransferProvingKey.parse (src.getD (defaultTransferProvingKeyPath dir n m d))

/-- `parameters.rs:190-213` `store_transfer_verifying_key` -/
def storeTransferVerifyingKey (dir : FilePath) (disk : Disk) (n m : ℕ) (d : Fin 256) (dest : Option FilePath) :
    Res Disk := do
  let (_, vk) ← transferPreprocess n m d
  disk.storeBytes vk.bytes (dest.getD (defaultTransferVerifyingKeyPath dir n m d))

/-- `parameters.rs:218-237` `load_transfer_verifying_key` -/
def loadTransferVerifyingKey (dir : FilePath) (disk : Disk) (n m : ℕ) (d : Fin 256) (src : Option FilePath) :
    Res TransferVerifyingKey :=
  disk.load TransferVerifyingKey.parse (src.getD (defaultTransferVerifyingKeyPath dir n m d))

/-- `parameters.rs:244-281` `store_mint_proving_key` -/
def storeMintProvingKey (dir : FilePath) (disk : Disk) (d : Fin 256) (dest : Option FilePath) : Res Disk := do
  let (pk, vk) ← mintPreprocess d
  let disk ← disk.storeBytes pk.bytes (dest.getD (defaultMintProvingKeyPath dir d))
  disk.storeBytes vk.bytes (dest.getD (defaultMintVerifyingKeyPath dir d))

/-- `parameters.rs:286-303` `load_mint_proving_key` -/
def loadMintProvingKey (dir : FilePath) (disk : Disk) (d : Fin 256) (src : Option FilePath) : Res MintProvingKey :=
  disk.load MintProvingKey.parse (src.getD (defaultMintProvingKeyPath dir d))

/-- `parameters.rs:314-334` `store_mint_verifying_key` -/
def storeMintVerifyingKey (dir : FilePath) (disk : Disk) (d : Fin 256) (dest : Option FilePath) : Res Disk := do
  let (_, vk) ← mintPreprocess d
  disk.storeBytes vk.bytes (dest.getD (defaultMintVerifyingKeyPath dir d))

/-- `parameters.rs:339-356` `load_mint_verifying_key` -/
def loadMintVerifyingKey (dir : FilePath) (disk : Disk) (d : Fin 256) (src : Option FilePath) :
    Res MintVerifyingKey :=
  disk.load MintVerifyingKey.parse (src.getD (defaultMintVerifyingKeyPath dir d))

/-- `parameters.rs:364-403` `store_freeze_proving_key` -/
def storeFreezeProvingKey (dir : FilePath) (disk : Disk) (n : ℕ) (d : Fin 256) (dest : Option FilePath) :
    Res Disk := do
  let (pk, vk) ← freezePreprocess n d
  let disk ← disk.storeBytes pk.bytes (dest.getD (defaultFreezeProvingKeyPath dir n d))
  disk.storeBytes vk.bytes (dest.getD (defaultFreezeVerifyingKeyPath dir n d))

/-- `parameters.rs:408-426` `load_freeze_proving_key` -/
def loadFreezeProvingKey (dir : FilePath) (disk : Disk) (n : ℕ) (d : Fin 256) (src : Option FilePath) :
    Res FreezeProvingKey :=
  disk.load FreezeProvingKey.parse (src.getD (defaultFreezeProvingKeyPath dir n d))

/-- `parameters.rs:438-459` `store_freeze_verifying_key` -/
def storeFreezeVerifyingKey (dir : FilePath) (disk : Disk) (n : ℕ) (d : Fin 256) (dest : Option FilePath) :
    Res Disk := do
  let (_, vk) ← freezePreprocess n d
  disk.storeBytes vk.bytes (dest.getD (defaultFreezeVerifyingKeyPath dir n d))

/-- `parameters.rs:464-482` `load_freeze_verifying_key` -/
def loadFreezeVerifyingKey (dir : FilePath) (disk : Disk) (n : ℕ) (d : Fin 256) (src : Option FilePath) :
    Res FreezeVerifyingKey :=
  disk.load FreezeVerifyingKey.parse (src.getD (defaultFreezeVerifyingKeyPath dir n d))

/-! ### The command line tool (`bin/gen-parameters.rs`) -/

/-- `bin/gen-parameters.rs:16-20` -/
inductive Circuit where
  | transfer
  | freezing
  | mint
deriving DecidableEq

/-- `bin/gen-parameters.rs:66-103`: the action `prover-srs`.  (`unwrap` of an error is a panic.  The universal parameter it
loads is the one of the model.) -/
def genProverSrs (dir : FilePath) (disk : Disk) (n_inputs n_outputs : ℕ) (tree_depth : Fin 256) (circuit : Circuit)
    (dest : Option FilePath) : Res Disk :=
  let r := match circuit with
    | .transfer => storeTransferProvingKey dir disk n_inputs n_outputs tree_depth dest
    | .freezing => storeMintProvingKey dir disk tree_depth dest
    | .mint => storeFreezeProvingKey dir disk n_inputs tree_depth dest
  match r with
  | .ok disk => .ok disk
  | .error _ => .error .panic

end Cap
