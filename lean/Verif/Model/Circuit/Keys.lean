/-
Model of how keys are made: `build_for_preprocessing` of `/repo/src/circuit/{transfer,mint,freeze}.rs` with the dummy
witnesses of `/repo/src/proof/{transfer,mint,freeze}.rs`; and `jf_plonk::PlonkKzgSnark` as a proof system for circuits
that are built gate by gate, with the `preprocess`, `prove` and `verify` that CAP gets from it.
-/
import Verif.Model.Circuit.Build
import Verif.Model.Builders

namespace Cap.Plonk

variable [E : CapEnv]

/-- the circuit that a function has built; a `CircuitError` becomes `TxnApiError::FailedSnark` -/
def built {α : Type} (m : Prog α) : Res Circ :=
  match m.run Circ.init with
  | some (_, c) => .ok c
  | none => .error .failedSnark

/-- `UserKeyPair::default()`: the secret key is 0.  The default decryption key is a parameter; it is not used. -/
def defaultUser (enc : E.AeadSk) : UserKeyPair := ⟨0, enc⟩

/-- `RecordOpening::default()` with the native asset, `proof/transfer.rs:232-238` and `proof/mint.rs:155-158` -/
def nativeRecord : RecordOpening := { TransferBuilder.defaultRecord with asset_def := AssetDefinition.native }

/-- `proof/transfer.rs:224-262` `TransferWitness::dummy`.  (The position of `MerklePathNode::default()` is the left
one here; it makes no difference to what is built.) -/
def transferDummy (n m : ℕ) (d : Fin 256) (user : UserKeyPair) : Res TransferWitness := do
  let _ ← treeOf d.val [nativeRecord.commitment]
  let cred ← unwrapRes ExpirableCredential.dummyUnexpired
  let secret : InputSecret := ⟨user, nativeRecord, ⟨List.replicate d.val ⟨0, 0, .left⟩, 0, 0⟩, cred⟩
  .ok ⟨AssetDefinition.native, List.replicate n secret, List.replicate m TransferBuilder.defaultRecord, 0⟩

/-- `circuit/transfer.rs:35-49` `TransferCircuit::build_for_preprocessing` -/
def transferForKeys (n m : ℕ) (d : Fin 256) (enc : E.AeadSk) : Res Circ := do
  let w ← transferDummy n m d (defaultUser enc)
  let p ← TransferPublicInput.fromWitness w 0
  built (transferBuild w.toV p.toV)

/-- `proof/mint.rs:154-180` `MintWitness::dummy` -/
def mintDummy (d : Fin 256) (user : UserKeyPair) : Res MintWitness := do
  let tree ← treeOf d.val [nativeRecord.commitment]
  let acc ← Wallet.lookupFromTree d.val tree 0
  .ok ⟨user, acc, nativeRecord, TransferBuilder.defaultRecord, nativeRecord, 0, 0, 0⟩

/-- `circuit/mint.rs:36-42` `MintCircuit::build_for_preprocessing` -/
def mintForKeys (d : Fin 256) (enc : E.AeadSk) : Res Circ := do
  let w ← mintDummy d (defaultUser enc)
  let p ← MintPublicInput.fromWitness w
  built (mintBuild w.toV p.toV)

/-- `proof/freeze.rs:191-216` `FreezeWitness::dummy`: `num_input - 1` panics for 0 (subtraction overflow, or capacity
overflow in a release build) -/
def freezeDummy (d : Fin 256) (n : ℕ) (user : UserKeyPair) (freezer : FreezerKeyPair) : Res FreezeWitness := do
  let tree ← treeOf d.val (List.replicate n TransferBuilder.defaultRecord.commitment)
  let accs ← lookupFrom d.val tree 0 n
  if n = 0 then .error .panic
  else .ok ⟨List.replicate n TransferBuilder.defaultRecord, accs, List.replicate n TransferBuilder.defaultRecord, user,
    List.replicate (n - 1) freezer⟩

/-- `circuit/freeze.rs:35-48` `FreezeCircuit::build_for_preprocessing`; `freezer` is the key drawn from a fixed seed -/
def freezeForKeys (n : ℕ) (d : Fin 256) (enc : E.AeadSk) (freezer : Fr) : Res Circ := do
  let w ← freezeDummy d n (defaultUser enc) (FreezerKeyPair.generate freezer)
  let p ← FreezePublicInput.fromWitness w
  match w.toV, p.toV with
  | some wv, some pv => built (freezeBuild wv pv)
  | _, _ => .error .panic

/-! ### The proof system -/

/-- `jf_plonk::PlonkKzgSnark` for one universal SRS, for circuits made of gates. -/
class PlonkSnark [E : CapEnv] where
  Proof : Type
  Pk : Type
  Vk : Type
  proofDec : DecidableEq Proof
  /-- `PlonkKzgSnark::preprocess`: looks at the gates, not at the values -/
  preprocess : Layout → Option (Pk × Vk)
  /-- `PlonkKzgSnark::prove`: key, circuit with its values, external message, randomness -/
  prove : Pk → Circ → List Byte → ℕ → Option Proof
  /-- `PlonkKzgSnark::verify`: key, public inputs, proof, external message -/
  verify : Vk → List F → Proof → List Byte → Bool
  /-- `PlonkKzgSnark::batch_verify` -/
  batchVerify : List (Vk × List F × Proof × List Byte) → Bool
  /-- the default decryption key of `aead` -/
  defaultDec : E.AeadSk
  /-- the key of the freezer that `StdRng::from_seed([0u8; 32])` gives -/
  zeroSeedFreezer : Fr
  roBytes : RecordOpening → Option (List Byte)
  roParse : List Byte → Option RecordOpening
  roParse_roBytes : ∀ ro b, roBytes ro = some b → roParse b = some ro

variable [P : PlonkSnark]

/-- all gates hold for these values -/
def Layout.Holds (l : Layout) (a : Asg) : Prop := ∀ g ∈ l.gates, g.Holds a

/-- the values of the public variables, in the order in which they were declared -/
def Layout.pub (l : Layout) (a : Asg) : List F := l.pubs.map a.f

/-- Completeness: for a circuit with the gates of the key, whose values satisfy the gates, there is a proof, and it
verifies for the values of the public variables. -/
def GateComplete : Prop :=
  ∀ (l : Layout) (pk : P.Pk) (vk : P.Vk), P.preprocess l = some (pk, vk) →
    ∀ c : Circ, c.layout = l → l.Holds c.asg → ∀ ext seed,
      ∃ π, P.prove pk c ext seed = some π ∧ P.verify vk (l.pub c.asg) π ext = true

/-- Knowledge soundness: whoever makes a proof that verifies knows values for the variables of the key's circuit that
satisfy all gates and have these public inputs.  (Idealised: the extractor always succeeds.) -/
def GateSound : Prop :=
  ∀ (l : Layout) (pk : P.Pk) (vk : P.Vk), P.preprocess l = some (pk, vk) →
    ∀ pub π ext, P.verify vk pub π ext = true → ∃ a : Asg, l.Holds a ∧ l.pub a = pub

/-- The prover fails on a circuit with the gates of the key if its values do not satisfy them. -/
def GateRefuses : Prop :=
  ∀ (l : Layout) (pk : P.Pk) (vk : P.Vk), P.preprocess l = some (pk, vk) →
    ∀ c : Circ, c.layout = l → ∀ ext seed π, P.prove pk c ext seed = some π → l.Holds c.asg

/-- as `SnarkBatch` -/
def GateBatch : Prop :=
  ∀ l : List (P.Vk × List F × P.Proof × List Byte), l ≠ [] →
    (P.batchVerify l = true ↔ ∀ x ∈ l, P.verify x.1 x.2.1 x.2.2.1 x.2.2.2 = true)

/-- `build_for_preprocessing` for each size.  (A depth above 255 is not a `u8`.) -/
def circuitForKeys : Shape → Res Circ
  | .transfer n m d => if h : d < 256 then transferForKeys n m ⟨d, h⟩ P.defaultDec else .error .panic
  | .mint d => if h : d < 256 then mintForKeys ⟨d, h⟩ P.defaultDec else .error .panic
  | .freeze n d => if h : d < 256 then freezeForKeys n ⟨d, h⟩ P.defaultDec P.zeroSeedFreezer else .error .panic

/-- `TransferCircuit::build`, `MintCircuit::build`, `FreezeCircuit::build_unchecked` -/
def circuitOf : CircuitInst → Res Circ
  | .transfer w p => built (transferBuild w p)
  | .mint w p => built (mintBuild w p)
  | .freeze w p => built (freezeBuild w p)

/-- What CAP makes of the proof system: keys for a size are those for the circuit of the dummy witness of this size
(`proof/transfer.rs:124-155`, `proof/mint.rs:69-93`, `proof/freeze.rs:93-121`), and proofs are for the circuit that is
built from the witness at hand (`proof/transfer.rs:159-188`, `proof/mint.rs:97-120`, `proof/freeze.rs:125-158`). -/
def capExt : CapExt where
  Proof := P.Proof
  Pk := P.Pk
  Vk := P.Vk
  proofDec := P.proofDec
  preprocess sh := match circuitForKeys sh with
    | .ok c => P.preprocess c.layout
    | .error _ => none
  prove pk inst ext seed := match circuitOf inst with
    | .ok c => P.prove pk c ext seed
    | .error _ => none
  verify := P.verify
  batchVerify := P.batchVerify
  roBytes := P.roBytes
  roParse := P.roParse
  roParse_roBytes := P.roParse_roBytes

/-! ### What CAP does with it -/

instance (c : Assertion) (l : List F) : Decidable (c.Holds l) := by
  unfold Assertion.Holds
  split <;> infer_instance

instance (a : Asg) (g : Gate) : Decidable (g.Holds a) := by
  unfold Gate.Holds
  split <;> infer_instance

instance (l : Layout) (a : Asg) : Decidable (l.Holds a) := by
  unfold Layout.Holds
  infer_instance

/-- jf-relation `check_circuit_satisfiability` -/
def checkSatisfiability (c : Circ) (pub : List F) : Res Unit :=
  ensure (decide (c.layout.Holds c.asg ∧ c.layout.pub c.asg = pub)) .failedSnark

/-- `proof/transfer.rs:124-155` `preprocess`, with the circuit as it is built -/
def transferPreprocessGates (n m : ℕ) (d : Fin 256) : Res (@TransferProvingKey E capExt × @TransferVerifyingKey E capExt) := do
  let c ← transferForKeys n m d P.defaultDec
  let (pk, vk) ← orFailedSnark (P.preprocess c.layout)
  .ok (@TransferProvingKey.mk E capExt pk n m d, @TransferVerifyingKey.mk E capExt vk n m d)

/-- `proof/mint.rs:69-93` `preprocess`, with the circuit as it is built -/
def mintPreprocessGates (d : Fin 256) : Res (@MintProvingKey E capExt × @MintVerifyingKey E capExt) := do
  let c ← mintForKeys d P.defaultDec
  let (pk, vk) ← orFailedSnark (P.preprocess c.layout)
  .ok (@MintProvingKey.mk E capExt pk d, @MintVerifyingKey.mk E capExt vk d)

/-- `proof/freeze.rs:93-121` `preprocess`, with the circuit as it is built -/
def freezePreprocessGates (n : ℕ) (d : Fin 256) : Res (@FreezeProvingKey E capExt × @FreezeVerifyingKey E capExt) := do
  let c ← freezeForKeys n d P.defaultDec P.zeroSeedFreezer
  let (pk, vk) ← orFailedSnark (P.preprocess c.layout)
  .ok (@FreezeProvingKey.mk E capExt pk d n, @FreezeVerifyingKey.mk E capExt vk d n)

/-- `proof/transfer.rs:159-188` `prove`, with the circuit as it is built -/
def transferProveGates (pk : @TransferProvingKey E capExt) (w : TransferWitness) (p : TransferPublicInput) (ver_key : Pt)
    (extra : List Byte) (seed : ℕ) : Res P.Proof := do
  let c ← built (transferBuild w.toV p.toV)
  checkSatisfiability c p.toScalars
  orFailedSnark (P.prove (@TransferProvingKey.key E capExt pk) c (E.verKeyBytes ver_key ++ extra) seed)

/-- `proof/mint.rs:97-120` `prove`, with the circuit as it is built -/
def mintProveGates (pk : @MintProvingKey E capExt) (w : MintWitness) (p : MintPublicInput) (ver_key : Pt) (seed : ℕ) :
    Res P.Proof := do
  let c ← built (mintBuild w.toV p.toV)
  orFailedSnark (P.prove (@MintProvingKey.key E capExt pk) c (E.verKeyBytes ver_key) seed)

/-- `proof/freeze.rs:125-158` `prove` and `circuit/freeze.rs:51-72` `build`, with the circuit as it is built -/
def freezeProveGates (pk : @FreezeProvingKey E capExt) (w : FreezeWitness) (p : FreezePublicInput) (ver_key : Pt) (seed : ℕ) :
    Res P.Proof := do
  ensure (freezeFlagsFlipped w.input_ros.tail w.output_ros.tail) .failedSnark
  match w.toV, p.toV with
  | some wv, some pv => do
    let c ← built (freezeBuild wv pv)
    checkSatisfiability c p.toScalars
    orFailedSnark (P.prove (@FreezeProvingKey.key E capExt pk) c (E.verKeyBytes ver_key) seed)
  | _, _ => .error .panic

end Cap.Plonk
