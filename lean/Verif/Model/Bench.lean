/-
Model of `/repo/src/bench_utils/mod.rs` and of what the programs in `/repo/benches` do with it.

Everything that is drawn at random is a parameter, as in `Model/Builders.lean`.  Text is a list of characters.  Left out: the
clock and `criterion`, the file system (the measured time of a title is a parameter), floating point (the three conversions
that use it are parameters), and the quoting of `csv`.
-/
import Verif.Model.Builders

namespace Cap

namespace Bench

/-! ### Text -/

/-- `bench_utils/mod.rs:36` -/
def genName : List Char := ['G', 'e', 'n']
/-- `bench_utils/mod.rs:37` -/
def batchName : List Char := ['B', 'a', 't', 'c', 'h', 'V', 'e', 'r', 'i', 'f', 'y']
/-- `bench_utils/mod.rs:38` -/
def verifyName : List Char := ['V', 'e', 'r', 'i', 'f', 'y']

/-- `bench_utils/mod.rs:40` -/
def numInputsRange : List ℕ := [2, 3, 4]
/-- `bench_utils/mod.rs:41` -/
def numOutputsRange : List ℕ := [2, 5]
/-- `bench_utils/mod.rs:42` -/
def treeDepth : Fin 256 := 26

/-- `{}` of a number -/
def dec (n : ℕ) : List Char := Nat.toDigits 10 n

/-- `bench_utils/mod.rs:57-64` `number_threads`: the variable RAYON_NUM_THREADS as it is, or the number of processors -/
def numberThreads (env : Option (List Char)) (cpus : ℕ) : List Char :=
  match env with
  | some s => s
  | none => dec cpus

/-- what the titles of one kind are made of -/
structure Simple where
  fun_desc : List Char
  num_inputs : ℕ
  num_outputs : ℕ
  tree_depth : ℕ
  domain_size : ℕ
  n_constraints : ℕ
  note_size : ℕ
  proving_key_size : ℕ
  verifying_key_size : ℕ
deriving DecidableEq

/-- the same for batches -/
structure Batch where
  fun_desc : List Char
  num_inputs : ℕ
  num_outputs : ℕ
  tree_depth : ℕ
  num_notes : ℕ
deriving DecidableEq

/-- `format!("{}-{}-…")` -/
def dashed (l : List (List Char)) : List Char := List.intercalate ['-'] l

/-- `bench_utils/mod.rs:85-113` `compute_title_simple`; `ratio` is the text of the utility ratio of so many constraints in a
domain of this size -/
def titleSimple (threads : List Char) (ratio : ℕ → ℕ → List Char) (x : Simple) : List Char :=
  dashed [threads, x.fun_desc, dec x.num_inputs, dec x.num_outputs, dec x.tree_depth, dec x.domain_size,
    dec x.n_constraints, ratio x.n_constraints x.domain_size, dec x.note_size, dec x.proving_key_size,
    dec x.verifying_key_size]

/-- `bench_utils/mod.rs:67-83` `compute_title_batch` -/
def titleBatch (threads : List Char) (x : Batch) : List Char :=
  dashed [threads, x.fun_desc, dec x.num_inputs, dec x.num_outputs, dec x.tree_depth, dec x.num_notes]

/-- `values[i]`, which panics behind the end -/
def at_ (values : List (List Char)) (i : ℕ) : Res (List Char) :=
  match values[i]? with
  | some v => .ok v
  | none => .error .panic

/-- `bench_utils/mod.rs:164-184` `build_csv_records_simple`; `kb` is `convert_bytes_to_kilobytes` (158-162), which panics on
text that is not a number -/
def recordSimple (kb : List Char → Res (List Char)) (desc : List Char) (values : List (List Char)) (time : List Char) :
    Res (List (List Char)) := do
  let v0 ← at_ values 0
  let v1 ← at_ values 1
  let v2 ← at_ values 2
  let v3 ← at_ values 3
  let v4 ← at_ values 4
  let v5 ← at_ values 5
  let v6 ← at_ values 6
  let v7 ← at_ values 7
  let v8 ← at_ values 8
  let k8 ← kb v8
  let v9 ← at_ values 9
  let k9 ← kb v9
  let v10 ← at_ values 10
  let k10 ← kb v10
  .ok [desc, v0, v1, v2, v3, v4, v5, v6, v7, k8, k9, k10, time]

/-- `bench_utils/mod.rs:186-201` `build_csv_records_batch` -/
def recordBatch (desc : List Char) (values : List (List Char)) (time : List Char) : Res (List (List Char)) := do
  let v0 ← at_ values 0
  let v1 ← at_ values 1
  let v2 ← at_ values 2
  let v3 ← at_ values 3
  let v4 ← at_ values 4
  let v5 ← at_ values 5
  .ok [desc, v0, v1, v2, v3, v4, v5, time]

/-- `bench_utils/mod.rs:216-228`, the loop of `save_results_to_file`: a row for each title.  `timeOf` is what
`read_json(full_path(title, _))` and `convert_nano_sec_to_millisec` give for a title. -/
def rows (record : List Char → List (List Char) → List Char → Res (List (List Char))) (desc : List Char)
    (timeOf : List Char → Res (List Char)) : List (List Char) → Res (List (List (List Char)))
  | [] => .ok []
  | title :: titles => do
    let values := title.splitOn '-'
    let time ← timeOf title
    let row ← record desc values time
    let l ← rows record desc timeOf titles
    .ok (row :: l)

/-- the headers of `bench_utils/mod.rs:239-253` -/
def headersSimple : List String := ["TRANSACTION", "N_THREADS", "FUNCTION", "N_INPUTS", "N_OUTPUTS", "TREE_HEIGHT",
  "DOMAIN_SIZE", "N_CONSTRAINTS", "UTILITY_RATIO(%)", "TRANSFER_NOTE_SIZE (KB)", "PROVING_KEY_SIZE (KB)",
  "VERIFYING_KEY_SIZE (KB)", "TIME (ms)"]

/-- the headers of `bench_utils/mod.rs:261-270` -/
def headersBatch : List String := ["TRANSACTION", "N_THREADS", "FUNCTION", "N_INPUTS", "N_OUTPUTS", "TREE_HEIGHT", "N_NOTES",
  "TIME (ms)"]

/-! ### Builders -/

variable [E : CapEnv]

/-- `bench_utils/mod.rs:317-341` `get_builder_transfer`.  `num_inputs - 1` and `num_outputs - 2` below zero panic in a debug
build; in a release build they wrap, and then the list cannot be allocated: always `panic` here. -/
def builderTransfer (users : List UserKeyPair) (num_inputs num_outputs : ℕ) (depth : Fin 256) (asset : NonNativeAsset)
    (in_blinds : ℕ → F) (receivers : ℕ → UserPubKey) (out_blinds : ℕ → F) (attrs : ℕ → List IdentityAttribute) :
    Res TransferBuilder := do
  ensure (decide (1 ≤ num_inputs)) .panic
  ensure (decide (2 ≤ num_outputs)) .panic
  TransferBuilder.make num_inputs num_outputs depth users (some asset) in_blinds 30 (List.replicate (num_inputs - 1) 1)
    receivers out_blinds 29 (Fin.ofNat (2 ^ 128) (num_inputs - 1) :: List.replicate (num_outputs - 2) 0) attrs 9999

/-- `bench_utils/mod.rs:294-315` `get_builder_mint` -/
def builderMint (seed fee_blind mint_blind : F) (minter receiver : UserKeyPair) (viewer : ViewerKeyPair) (depth : Fin 256) :
    Res MintBuilder :=
  MintBuilder.new seed fee_blind mint_blind depth 10 4 35 minter receiver viewer

/-- `bench_utils/mod.rs:274-292` `get_builder_freeze` -/
def builderFreeze (draws : ℕ → FreezeBuilder.InputSample) (fee_blind : F) (k : UserKeyPair) (freezers : List FreezerKeyPair)
    (num_inputs : ℕ) (depth : Fin 256) : Res FreezeBuilder := do
  ensure (decide (1 ≤ num_inputs)) .panic
  FreezeBuilder.new draws fee_blind depth (List.replicate (num_inputs - 1) 15) 10 5 k freezers

variable [S : CapExt]

/-- the notes that `benches/batch_verification.rs:107-178` collects -/
def batchNotes (k : ℕ) (t : TransferNote) (m : MintNote) (f : FreezeNote) : List TransactionNote :=
  List.replicate k (.transfer t) ++ List.replicate k (.mint m) ++ List.replicate k (.freeze f)

/-- the keys of these notes -/
def batchKeys (k : ℕ) (t : TransferVerifyingKey) (m : MintVerifyingKey) (f : FreezeVerifyingKey) :
    List TransactionVerifyingKey :=
  List.replicate k (.transfer t) ++ List.replicate k (.mint m) ++ List.replicate k (.freeze f)

/-- the roots of these notes, as the notes have them -/
def batchRoots (k : ℕ) (t : TransferNote) (m : MintNote) (f : FreezeNote) : List F :=
  List.replicate k t.aux_info.merkle_root ++ List.replicate k m.aux_info.merkle_root ++
    List.replicate k f.aux_info.merkle_root

end Bench

end Cap
