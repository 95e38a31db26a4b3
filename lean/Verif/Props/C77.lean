/-
C77: the size of a transaction tells nothing but how many records it spends and creates.

status: proved
note: C77_memo: the viewing memo of a generated transfer has as many entries with a viewer as without, above the reveal threshold as below, with dummy inputs as without: a number that depends on how many records are spent and created. C77_made: the encoded size of every note made by the library is therefore a function of its kind, the numbers of records spent and created, the length of the bound data the sender chose, and the size of the proof (jf-plonk, external; its size depends on the circuit). C77_same: two such notes with the same of these have the same size, whatever the assets, policies, amounts, owners and freeze flags. C77_accepted: the same formula holds for every note a validator accepts, so a different size does not mark notes made by other programs either. Uses the byte format of C71.
-/
import Verif.Props.C57
import Verif.Props.C71

namespace Cap

namespace Spec

variable [E : CapEnv] [S : CapExt]

/-- What an encoded note takes without its proof, if it spends and creates so many records. -/
def sizeWithoutProof (t : TransactionNote) (spent created : ℕ) : ℕ :=
  match t with
  | .transfer n => 185 + 32 * spent + 384 * (spent - 1) + 32 * created + 128 * (created - 1)
      + n.aux_info.extra_proof_bound_data.length
  | .mint _ => 525
  | .freeze _ => 97 + 32 * spent + 32 * created

/-- two transfers, two mints or two freezes -/
def AlikeKind : TransactionNote → TransactionNote → Prop
  | .transfer _, .transfer _ => True
  | .mint _, .mint _ => True
  | .freeze _, .freeze _ => True
  | _, _ => False

/-- the proof in a note -/
def proofOf : TransactionNote → S.Proof
  | .transfer n => n.proof
  | .mint n => n.proof
  | .freeze n => n.proof

/-- what the sender of a transfer has bound to it -/
def boundOf : TransactionNote → List Byte
  | .transfer n => n.aux_info.extra_proof_bound_data
  | .mint _ => []
  | .freeze _ => []

end Spec

open Spec

variable [E : CapEnv] [S : CapExt]

/-- **The viewing memo of a generated transfer** is as long with a viewer as without. -/
theorem C77_memo {b : Build} {rng : TransferRand} {inputs : List TransferNoteInput}
    {outputs : List RecordOpening} {pk : TransferProvingKey} {valid_until : U64} {extra : List Byte}
    {n : TransferNote} {sk : Fr} (gen : TransferNote.generate b rng inputs outputs pk valid_until extra = .ok (n, sk)) :
    n.inputs_nullifiers.length = inputs.length ∧ n.output_commitments.length = outputs.length ∧
      n.viewing_memo.data.length = 12 * (inputs.length - 1) + 4 * (outputs.length - 1) + 1 := by
  obtain ⟨w, pub, h⟩ := TransferNote.generate_ok.1 gen
  have hs := h.shape h.sat
  obtain ⟨-, -, h1, h2, -⟩ := C40_generate gen
  have h3 : pub.viewing_memo.data.length = (pk.n_inputs - 1) * 12 + (pk.n_outputs - 1) * 4 + 1 := hs.memo_len
  refine ⟨?_, ?_, ?_⟩
  · rw [transfer_nullifiers gen, List.length_map]
  · rw [transfer_commitments gen, List.length_map]
  · rw [h.memo, h3, h1, h2]; ring

theorem mint_memo {rng : TransferRand} {mint_ro : RecordOpening} {ac_seed : F} {desc : List Byte}
    {fee : TxnFeeInfo} {pk : MintProvingKey} {n : MintNote} {sk : Fr}
    (gen : MintNote.generate rng mint_ro ac_seed desc fee pk = .ok (n, sk)) : n.viewing_memo.data.length = 3 := by
  have h := MintNote.generate_ok.1 gen
  have h1 : n.pub.viewing_memo.data.length = 3 := by
    rw [h.pub]
    exact (mint_shape h.checks (enc := rng.enc_rand)).memo_len
  exact h1

section
variable [W : WireEnv]

/-- **The size of a note made by the library.** -/
theorem C77_made {d : Fin 256} {t : Txn} (made : Made d t) :
    (noteFormat.ser t.note).length =
      sizeWithoutProof t.note t.spends.length t.creates.length + (W.proof.ser (proofOf t.note)).length := by
  have hc : t.note.outputCommitments.length = t.creates.length := by rw [made.commitments, List.length_map]
  have hn : t.note.nullifiers.length = t.spends.length := made.nullifiers.length_eq.symm
  rw [C71_size]
  cases made with
  | transfer keys gen =>
    obtain ⟨h1, h2, h3⟩ := C77_memo gen
    simp only [sizeWithoutProof, proofOf, h1, h2, h3, List.length_map]
    omega
  | mint keys gen =>
    simp only [sizeWithoutProof, proofOf, mint_memo gen]
    omega
  | freeze keys gen fee_path paths =>
    simp only [TransactionNote.nullifiers, TransactionNote.outputCommitments] at hc hn
    simp only [sizeWithoutProof, proofOf, hc, hn]

/-- **Size tells nothing else.** -/
theorem C77_same {d d' : Fin 256} {t t' : Txn} (made : Made d t) (made' : Made d' t')
    (kind : AlikeKind t.note t'.note) (spent : t.spends.length = t'.spends.length)
    (created : t.creates.length = t'.creates.length) (bound : (boundOf t.note).length = (boundOf t'.note).length)
    (proof : (W.proof.ser (proofOf t.note)).length = (W.proof.ser (proofOf t'.note)).length) :
    (noteFormat.ser t.note).length = (noteFormat.ser t'.note).length := by
  rw [C77_made made, C77_made made', proof, spent, created]
  congr 1
  cases h : t.note <;> cases h' : t'.note <;> rw [h, h'] at kind bound <;> first | cases kind | skip
  · simp only [sizeWithoutProof]
    simp only [boundOf] at bound
    rw [bound]
  · rfl
  · rfl

theorem opened_size {d : ℕ} {o : Opening} (sat : o.Satisfied d) :
    (noteFormat.ser o.note).length =
      sizeWithoutProof o.note o.note.nullifiers.length o.note.outputCommitments.length +
        (W.proof.ser (proofOf o.note)).length := by
  rw [C71_size]
  cases o with
  | transfer n w =>
    have h : n.viewing_memo.data.length =
      (n.inputs_nullifiers.length - 1) * 12 + (n.output_commitments.length - 1) * 4 + 1 := sat.shape.memo_len
    simp only [Opening.note, sizeWithoutProof, proofOf, h, TransactionNote.nullifiers, TransactionNote.outputCommitments]
    omega
  | mint n w =>
    have h : n.viewing_memo.data.length = 3 := sat.shape.memo_len
    simp only [Opening.note, sizeWithoutProof, proofOf, h]
    omega
  | freeze n w => rfl

/-- **The size of an accepted note**, whoever made it. -/
theorem C77_accepted (sound : SnarkSound) (batch : SnarkBatch) {d : Fin 256} {s : LedgerState}
    {txns : List TransactionNote} {time : U64} (ok : validateTxnsBatch d s txns time = .ok ()) :
    ∀ t ∈ txns, (noteFormat.ser t).length =
      sizeWithoutProof t t.nullifiers.length t.outputCommitments.length + (W.proof.ser (proofOf t)).length := by
  obtain ⟨os, rfl, sat⟩ := block_opened sound batch ok
  intro t ht
  obtain ⟨o, ho, rfl⟩ := List.mem_map.1 ht
  exact opened_size (sat o ho)

end

end Cap

namespace Cap.Examples
open Toy Spec

/-- a payment of native coins among two dummies, with the proving key of the example transfer -/
def nativeInputs : List TransferNoteInput :=
  [⟨feeRec, acc0, alice, none⟩, ⟨dummyRec, accDummy, bob, none⟩, ⟨{ dummyRec with blind := 35 }, accDummy, bob, none⟩]

/-- what it pays: no viewer, no credential, no asset -/
def nativeOutputs : List RecordOpening :=
  [⟨33, AssetDefinition.native, alice.pubKey, .unfrozen, 44⟩, ⟨60, AssetDefinition.native, bob.pubKey, .unfrozen, 45⟩,
   ⟨1, AssetDefinition.native, bob.pubKey, .unfrozen, 46⟩]

theorem native_isOk : isOk (TransferNote.generate .release rng nativeInputs nativeOutputs xfrPk 700 [9, 9, 9]) = true := by
  decide +kernel

/-- the note -/
noncomputable def nativeNote : TransferNote :=
  (okVal (TransferNote.generate .release rng nativeInputs nativeOutputs xfrPk 700 [9, 9, 9]) native_isOk).1

theorem nativeNote_eq : ∃ sk, TransferNote.generate .release rng nativeInputs nativeOutputs xfrPk 700 [9, 9, 9] =
    .ok (nativeNote, sk) := ⟨_, okVal_eq2 _ native_isOk⟩

/-- their proofs are equally long -/
theorem native_proof : (W.proof.ser nativeNote.proof).length = (W.proof.ser xfrNote.proof).length := by
  decide +kernel

attribute [irreducible] nativeNote

/-- both are transfers of three records to three records, and both memos have 33 entries -/
example : nativeNote.viewing_memo.data.length = 33 ∧ xfrNote.viewing_memo.data.length = 33 := by
  obtain ⟨sk, gen⟩ := nativeNote_eq
  exact ⟨(C77_memo gen).2.2, (C77_memo xfrNote_eq).2.2⟩

/-- the two are equally long, one with a viewed asset and the other without: `C77_same` applies -/
example : (noteFormat.ser (.transfer nativeNote)).length = (noteFormat.ser (.transfer xfrNote)).length := by
  obtain ⟨sk, gen⟩ := nativeNote_eq
  obtain ⟨_, _, g1⟩ := TransferNote.generate_ok.1 gen
  obtain ⟨_, _, g2⟩ := TransferNote.generate_ok.1 xfrNote_eq
  have h1 : boundOf (.transfer nativeNote) = [9, 9, 9] := g1.extra_eq
  have h2 : boundOf (.transfer xfrNote) = [1, 2, 3] := g2.extra_eq
  exact C77_same (Made.transfer (d := 1) (c := 3) (a := 3) xfrKeys_eq gen)
    (Made.transfer (d := 1) xfrKeys_eq xfrNote_eq) trivial rfl rfl
    (by dsimp only; rw [h1, h2]; rfl) native_proof

/-- the block of the example ledger is accepted, so `C77_accepted` applies -/
example := C77_accepted (W := W) sound batch valid1

end Cap.Examples
