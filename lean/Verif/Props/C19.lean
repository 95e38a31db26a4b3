/-
C19 Generated freezes verify
status: proved
note: generate compares only the fee record's path length, modulo 256, with the key's depth. C19_generate therefore asks for Merkle paths of the key's depth; C19_generate_any asks instead that the prover refuses circuits of the wrong size.
-/
import Verif.Lemmas.GenerateMintFreeze
import Verif.Model.ToyNotes

namespace Cap

variable [E : CapEnv] [S : CapExt]

/-- `freeze::preprocess` returns keys for the requested sizes -/
theorem freezePreprocess_ok {num : ℕ} {d : Fin 256} {pk : FreezeProvingKey} {vk : FreezeVerifyingKey}
    (h : freezePreprocess num d = .ok (pk, vk)) :
    S.preprocess (.freeze num d.val) = some (pk.key, vk.key) ∧ pk.num_input = num ∧ pk.tree_depth = d := by
  unfold freezePreprocess at h
  split at h
  · cases h
  · split at h
    · cases h
    · split at h
      · cases h
      · rename_i hs
        cases h
        exact ⟨hs, rfl, rfl⟩

/-- A note returned by `FreezeNote::generate` from records with Merkle paths of the key's depth is accepted by
`FreezeNote::verify` with the matching key and its own Merkle root. -/
theorem C19_generate {num : ℕ} {d : Fin 256} {pk : FreezeProvingKey} {vk : FreezeVerifyingKey}
    (keys : freezePreprocess num d = .ok (pk, vk)) (complete : SnarkComplete)
    {rng : FreezeRand} {inputs : List FreezeNoteInput} {fee : TxnFeeInfo} {n : FreezeNote} {sk : Fr}
    {outs : List RecordOpening} (gen : FreezeNote.generate rng inputs fee pk = .ok (n, sk, outs))
    (fee_path : fee.fee_input.acc.path.length = d.val) (paths : ∀ i ∈ inputs, i.acc.path.length = d.val) :
    n.verify vk n.aux_info.merkle_root = .ok () := by
  have h := FreezeNote.generate_ok.1 gen
  obtain ⟨hk, h1, h2⟩ := freezePreprocess_ok keys
  rw [FreezeNote.verify_ok]
  refine ⟨rfl, h.verifies complete (by rw [h1, h2]; exact hk) (h.shape ?_ ?_)⟩
  · rw [h2]; exact fee_path
  · rw [h2]; exact paths

/-- If the prover refuses circuits of the wrong size, every note `FreezeNote::generate` returns verifies. -/
theorem C19_generate_any {num : ℕ} {d : Fin 256} {pk : FreezeProvingKey} {vk : FreezeVerifyingKey}
    (keys : freezePreprocess num d = .ok (pk, vk)) (complete : SnarkComplete) (sized : SnarkSized)
    {rng : FreezeRand} {inputs : List FreezeNoteInput} {fee : TxnFeeInfo} {n : FreezeNote} {sk : Fr}
    {outs : List RecordOpening} (gen : FreezeNote.generate rng inputs fee pk = .ok (n, sk, outs)) :
    n.verify vk n.aux_info.merkle_root = .ok () := by
  have h := FreezeNote.generate_ok.1 gen
  obtain ⟨hk, h1, h2⟩ := freezePreprocess_ok keys
  have hs : FreezeShape num d.val _ _ := sized _ _ _ hk _ _ _ _ h.sat.2
  rw [FreezeNote.verify_ok]
  refine ⟨rfl, h.verifies complete (by rw [h1, h2]; exact hk) ?_⟩
  rw [h1, h2]
  exact hs

/-- The note commits to the fee change and to the returned records, which are the inputs with the flag flipped and a
fresh blinding factor. -/
theorem C19_outputs {pk : FreezeProvingKey} {rng : FreezeRand} {inputs : List FreezeNoteInput} {fee : TxnFeeInfo}
    {n : FreezeNote} {sk : Fr} {outs : List RecordOpening}
    (gen : FreezeNote.generate rng inputs fee pk = .ok (n, sk, outs)) :
    n.output_commitments = (fee.fee_chg_ro :: outs).map RecordOpening.commitment ∧
      outs.length = inputs.length ∧
      ∀ (k : ℕ) (i : FreezeNoteInput) (o : RecordOpening), inputs[k]? = some i → outs[k]? = some o →
        o = { i.ro with freeze_flag := i.ro.freeze_flag.flip, blind := rng.blinds k } := by
  have h := FreezeNote.generate_ok.1 gen
  refine ⟨?_, ?_, ?_⟩
  · have := congrArg FreezePublicInput.output_commitments h.pub
    rw [h.outs_eq]
    exact this
  · rw [h.outs_eq, freezeGetOutputRos_length]
  · intro k i o hi ho
    rw [h.outs_eq, freezeGetOutputRos, List.getElem?_mapIdx, hi] at ho
    simpa [eq_comm] using ho

end Cap

namespace Cap.Toy

theorem frzNote_verify : frzNote.verify frzVk frzNote.aux_info.merkle_root = .ok () :=
  C19_generate frzKeys_eq complete frzNote_eq rfl (by decide +kernel)

end Cap.Toy

namespace Cap.Examples
open Toy

/-- releasing Bob's record, freezing Alice's, with a dummy in the third place -/
example : freezePreprocess 4 1 = .ok (frzPk, frzVk) ∧ SnarkComplete ∧ SnarkSized ∧
    FreezeNote.generate frzRng frzInputs feeInfo frzPk = .ok (frzNote, frzSk, frzOuts) ∧
    (∀ i ∈ frzInputs, i.acc.path.length = 1) ∧ frzInputs[1]? ≠ none :=
  ⟨frzKeys_eq, complete, sized, frzNote_eq, by decide +kernel, by simp [frzInputs]⟩

end Cap.Examples
