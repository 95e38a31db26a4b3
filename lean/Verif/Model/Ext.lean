/-
The proof system and the codecs CAP gets from other crates, and the size of a circuit.

`jf_plonk::PlonkKzgSnark` is abstract: `preprocess`, `prove`, `verify` and `batch_verify` are functions about
which nothing is assumed here.  `SnarkComplete`, `SnarkSound` and `SnarkBatch` are the properties the
theorems take as explicit hypotheses.
-/
import Verif.Model.Circuit.Transfer
import Verif.Model.Circuit.Mint
import Verif.Model.Circuit.Freeze

namespace Cap

variable [E : CapEnv]

/-- What a key is preprocessed for: `proof/transfer.rs:124-129`, `proof/mint.rs:69-72`,
`proof/freeze.rs:93-97`. -/
inductive Shape where
  | transfer (n_inputs n_outputs : ℕ) (tree_depth : ℕ)
  | mint (tree_depth : ℕ)
  | freeze (num_input : ℕ) (tree_depth : ℕ)
deriving DecidableEq

/-- An assignment to the variables of one of the three circuits. -/
inductive CircuitInst where
  | transfer (w : TransferWit) (p : TransferPub)
  | mint (w : MintWit) (p : MintPub)
  | freeze (w : FreezeWit) (p : FreezePub)

/-- every gate of the circuit holds -/
def CircuitInst.Sat : CircuitInst → Prop
  | .transfer w p => TransferSat w p
  | .mint w p => MintSat w p
  | .freeze w p => FreezeSat w p

/-- the assignment is one for the circuit of this size -/
def CircuitInst.HasShape : CircuitInst → Shape → Prop
  | .transfer w p, .transfer n m d => TransferShape n m d w p
  | .mint w p, .mint d => MintShape d w p
  | .freeze w p, .freeze n d => FreezeShape n d w p
  | _, _ => False

instance : (i : CircuitInst) → Decidable i.Sat
  | .transfer w p => inferInstanceAs (Decidable (TransferSat w p))
  | .mint w p => inferInstanceAs (Decidable (MintSat w p))
  | .freeze w p => inferInstanceAs (Decidable (FreezeSat w p))

instance : (i : CircuitInst) → (sh : Shape) → Decidable (i.HasShape sh)
  | .transfer w p, .transfer n m d => inferInstanceAs (Decidable (TransferShape n m d w p))
  | .mint w p, .mint d => inferInstanceAs (Decidable (MintShape d w p))
  | .freeze w p, .freeze n d => inferInstanceAs (Decidable (FreezeShape n d w p))
  | .transfer _ _, .mint _ => isFalse id
  | .transfer _ _, .freeze _ _ => isFalse id
  | .mint _ _, .transfer _ _ _ => isFalse id
  | .mint _ _, .freeze _ _ => isFalse id
  | .freeze _ _, .transfer _ _ _ => isFalse id
  | .freeze _ _, .mint _ => isFalse id

/-- the public variables in the order in which they were declared -/
def CircuitInst.pub : CircuitInst → List F
  | .transfer _ p => p.toScalars
  | .mint _ p => p.toScalars
  | .freeze _ p => p.toScalars

/-- `jf_plonk::PlonkKzgSnark` for one universal SRS, and `bincode` for record openings. -/
class CapExt [E : CapEnv] where
  Proof : Type
  Pk : Type
  Vk : Type
  proofDec : DecidableEq Proof
  /-- `PlonkKzgSnark::preprocess`, `none` if the SRS is too small -/
  preprocess : Shape → Option (Pk × Vk)
  /-- `PlonkKzgSnark::prove`: key, circuit, external message, randomness; `none` is a `PlonkError` -/
  prove : Pk → CircuitInst → List Byte → ℕ → Option Proof
  /-- `PlonkKzgSnark::verify`: key, public inputs, proof, external message -/
  verify : Vk → List F → Proof → List Byte → Bool
  /-- `PlonkKzgSnark::batch_verify` -/
  batchVerify : List (Vk × List F × Proof × List Byte) → Bool
  /-- `bincode::serialize` of a record opening; `none` is an error -/
  roBytes : RecordOpening → Option (List Byte)
  /-- `bincode::deserialize` of a record opening -/
  roParse : List Byte → Option RecordOpening
  roParse_roBytes : ∀ ro b, roBytes ro = some b → roParse b = some ro

variable [S : CapExt]

instance : DecidableEq S.Proof := S.proofDec

/-- An honest proof for a satisfied circuit of the right size is produced and verifies. -/
def SnarkComplete : Prop :=
  ∀ (sh : Shape) (pk : S.Pk) (vk : S.Vk), S.preprocess sh = some (pk, vk) →
    ∀ inst : CircuitInst, inst.HasShape sh → inst.Sat → ∀ ext seed,
      ∃ π, S.prove pk inst ext seed = some π ∧ S.verify vk inst.pub π ext = true

/-- Knowledge soundness: whoever makes a proof that verifies knows an assignment that satisfies the
circuit of the key and has these public inputs.  (Idealised: the extractor always succeeds.) -/
def SnarkSound : Prop :=
  ∀ (sh : Shape) (pk : S.Pk) (vk : S.Vk), S.preprocess sh = some (pk, vk) →
    ∀ pub π ext, S.verify vk pub π ext = true →
      ∃ inst : CircuitInst, inst.HasShape sh ∧ inst.Sat ∧ inst.pub = pub

/-- Batch verification accepts exactly when every single verification does (for a non-empty batch;
jf-plonk rejects an empty one).  (Idealised: the random combination never hides a failure.) -/
def SnarkBatch : Prop :=
  ∀ l : List (S.Vk × List F × S.Proof × List Byte), l ≠ [] →
    (S.batchVerify l = true ↔ ∀ x ∈ l, S.verify x.1 x.2.1 x.2.2.1 x.2.2.2 = true)

/-- every credential has the number of attributes that the circuit has variables for -/
def CircuitInst.AttrsFit : CircuitInst → Prop
  | .transfer w _ => ∀ i ∈ w.inputs, i.cred.attrs.length = 8
  | _ => True

/-- The prover fails on a circuit of the size of the key that is not satisfied (jf-plonk's prover then finds that the
quotient is not a polynomial). -/
def SnarkRefuses : Prop :=
  ∀ (sh : Shape) (pk : S.Pk) (vk : S.Vk), S.preprocess sh = some (pk, vk) →
    ∀ inst ext seed π, inst.HasShape sh → inst.AttrsFit →
      S.prove pk inst ext seed = some π → inst.Sat

/-- The prover fails on a circuit that is not of the size of the key.  (Stronger than what jf-plonk does: it compares the
number of public inputs and the size of the domain, which is rounded up to a power of two.) -/
def SnarkSized : Prop :=
  ∀ (sh : Shape) (pk : S.Pk) (vk : S.Vk), S.preprocess sh = some (pk, vk) →
    ∀ inst ext seed π, S.prove pk inst ext seed = some π → inst.HasShape sh

end Cap
