/-
Model of the size of universal parameters: `/repo/src/utils/mod.rs` `compute_universal_param_size`, and of the verifying key
inside a proving key, `/repo/src/proof/transfer.rs`.
-/
import Verif.Model.Circuit.Keys

namespace Cap.Plonk

variable [E : CapEnv]

/-- `structs.rs:48-57` `NoteType` -/
inductive NoteType where
  | transfer
  | mint
  | freeze
deriving DecidableEq

/-- jf-plonk with universal parameters of different sizes -/
class SizedPlonk [E : CapEnv] where
  Srs : Type
  /-- the `max_degree` that `universal_setup` was given -/
  degree : Srs → ℕ
  /-- jf-relation `eval_domain_size`: looks at the gates and the public variables, not at the values -/
  domain : Layout → Option ℕ
  /-- jf-relation `num_gates` -/
  numGates : Layout → ℕ
  /-- the proof system for one universal parameter -/
  snark : Srs → PlonkSnark

variable [Z : SizedPlonk]

/-- A parameter for the size of the domain and two more is enough to preprocess a circuit (jf-plonk `srs_size` is the size
of the domain and 2); a circuit without a domain is refused. -/
def SrsSuffices : Prop :=
  ∀ (s : Z.Srs) (l : Layout),
    (∀ n, Z.domain l = some n → n + 2 ≤ Z.degree s → ∃ k, (Z.snark s).preprocess l = some k) ∧
    (Z.domain l = none → (Z.snark s).preprocess l = none)

/-- `utils/mod.rs:95-107`: the circuit whose size `compute_universal_param_size` takes.  Arguments that a kind of note has no
use for are ignored.  The default decryption key and the freezer key from a fixed seed are parameters. -/
def universalParamCircuit (enc : E.AeadSk) (freezer : Fr) (kind : NoteType) (n m : ℕ) (d : Fin 256) : Res Circ :=
  match kind with
  | .transfer => transferForKeys n m d enc
  | .mint => mintForKeys d enc
  | .freeze => freezeForKeys n d enc freezer

/-- `utils/mod.rs:89-113` `compute_universal_param_size` -/
def universalParamSize (enc : E.AeadSk) (freezer : Fr) (kind : NoteType) (n m : ℕ) (d : Fin 256) : Res ℕ := do
  let c ← universalParamCircuit enc freezer kind n m d
  let size ← orFailedSnark (Z.domain c.layout)
  .ok (size + 2)

/-- `proof/transfer.rs:110-119` `From<&TransferProvingKey> for TransferVerifyingKey`; `inside` is the field `vk` of jf-plonk's
proving key -/
def transferVerifyingKeyOf [S : CapExt] (inside : S.Pk → S.Vk) (pk : TransferProvingKey) : TransferVerifyingKey :=
  ⟨inside pk.key, pk.n_inputs, pk.n_outputs, pk.tree_depth⟩

end Cap.Plonk
