/-
C17 Generated transfers verify
status: proved
note: For every environment whose proof system is complete: every note returned by generate, generate_native or generate_non_native verifies under the preprocessed key, its own root and every time up to valid_until.
-/
import Verif.Lemmas.GenerateMintFreeze
import Verif.Model.ToyNotes

namespace Cap

variable [E : CapEnv] [S : CapExt]

/-- `transfer_preprocess` returns keys for the requested sizes -/
theorem transferPreprocess_ok {ni no : ℕ} {d : Fin 256} {pk : TransferProvingKey} {vk : TransferVerifyingKey}
    (h : transferPreprocess ni no d = .ok (pk, vk)) :
    S.preprocess (.transfer ni no d.val) = some (pk.key, vk.key) ∧ pk.n_inputs = ni ∧ pk.n_outputs = no ∧
      pk.tree_depth = d := by
  unfold transferPreprocess at h
  split at h
  · cases h
  · split at h
    · cases h
    · rename_i hs
      cases h
      exact ⟨hs, rfl, rfl, rfl⟩

/-- A note returned by `TransferNote::generate` is accepted by `TransferNote::verify` with the matching key, against
its own Merkle root, at every time up to the requested expiry, which the note carries. -/
theorem C17_generate {ni no : ℕ} {d : Fin 256} {pk : TransferProvingKey} {vk : TransferVerifyingKey}
    (keys : transferPreprocess ni no d = .ok (pk, vk)) (complete : SnarkComplete)
    {b : Build} {rng : TransferRand} {inputs : List TransferNoteInput} {outputs : List RecordOpening}
    {valid_until : U64} {extra : List Byte} {n : TransferNote} {sk : Fr}
    (gen : TransferNote.generate b rng inputs outputs pk valid_until extra = .ok (n, sk)) :
    n.aux_info.valid_until = valid_until ∧
      ∀ t : U64, t ≤ valid_until → n.verify vk n.aux_info.merkle_root t = .ok () := by
  obtain ⟨w, pub, h⟩ := TransferNote.generate_ok.1 gen
  obtain ⟨hk, h1, h2, h3⟩ := transferPreprocess_ok keys
  refine ⟨h.note_valid, fun t ht => ?_⟩
  rw [TransferNote.verify_ok]
  refine ⟨rfl, by rw [h.note_valid]; exact ht, h.verifies complete ?_⟩
  rw [h1, h2, h3]; exact hk

/-- The same for `generate_native`. -/
theorem C17_generate_native {ni no : ℕ} {d : Fin 256} {pk : TransferProvingKey} {vk : TransferVerifyingKey}
    (keys : transferPreprocess ni no d = .ok (pk, vk)) (complete : SnarkComplete)
    {b : Build} {blind : F} {rng : TransferRand} {inputs : List TransferNoteInput} {outputs : List RecordOpening}
    {fee : Amount} {valid_until : U64} {n : TransferNote} {sk : Fr} {chg : RecordOpening}
    (gen : TransferNote.generateNative b blind rng inputs outputs fee valid_until pk = .ok (n, sk, chg)) :
    n.aux_info.valid_until = valid_until ∧
      ∀ t : U64, t ≤ valid_until → n.verify vk n.aux_info.merkle_root t = .ok () := by
  unfold TransferNote.generateNative at gen
  split at gen
  · cases gen
  · simp only [bind_ok_iff] at gen
    obtain ⟨_, -, _, -, _, -, _, -, _, -, ⟨n', sk'⟩, h, h'⟩ := gen
    cases h'
    exact C17_generate keys complete h

/-- The same for `generate_non_native`. -/
theorem C17_generate_non_native {ni no : ℕ} {d : Fin 256} {pk : TransferProvingKey} {vk : TransferVerifyingKey}
    (keys : transferPreprocess ni no d = .ok (pk, vk)) (complete : SnarkComplete)
    {b : Build} {rng : TransferRand} {inputs : List TransferNoteInput} {outputs : List RecordOpening}
    {fee : TxnFeeInfo} {valid_until : U64} {extra : List Byte} {n : TransferNote} {sk : Fr}
    (gen : TransferNote.generateNonNative b rng inputs outputs fee valid_until pk extra = .ok (n, sk)) :
    n.aux_info.valid_until = valid_until ∧
      ∀ t : U64, t ≤ valid_until → n.verify vk n.aux_info.merkle_root t = .ok () := by
  unfold TransferNote.generateNonNative at gen
  rw [bind_ok_iff] at gen
  obtain ⟨_, -, h⟩ := gen
  exact C17_generate keys complete h

end Cap

namespace Cap.Toy

/-- the example note is accepted -/
theorem xfrNote_verify (t : U64) (ht : t ≤ 900) : xfrNote.verify xfrVk xfrNote.aux_info.merkle_root t = .ok () :=
  (C17_generate xfrKeys_eq complete xfrNote_eq).2 t ht

/-- the native example note is accepted -/
theorem natNote_verify (t : U64) (ht : t ≤ 800) : natNote.verify natVk natNote.aux_info.merkle_root t = .ok () :=
  (C17_generate_native natKeys_eq complete (show TransferNote.generateNative .debug 46 rng natInputs natOutputs 3 800
    natPk = _ from natNote_eq)).2 t ht

end Cap.Toy

namespace Cap.Examples
open Toy

/-- a transfer of a credentialed, viewable, freezable asset with a dummy input meets the hypotheses -/
example : transferPreprocess 3 3 1 = .ok (xfrPk, xfrVk) ∧ SnarkComplete ∧
    TransferNote.generate .release rng xfrInputs xfrOutputs xfrPk 900 [1, 2, 3] = .ok (xfrNote, xfrSk) :=
  ⟨xfrKeys_eq, complete, xfrNote_eq⟩

/-- so does a native transfer in a debug build -/
example : natGen = TransferNote.generateNative .debug 46 rng natInputs natOutputs 3 800 natPk ∧
    natGen = .ok (natNote, natSk, natChg) := ⟨rfl, natNote_eq⟩

/-- and `generate_non_native` -/
example : isOk (TransferNote.generateNonNative .debug rng xfrInputs.tail xfrOutputs.tail feeInfo 900 xfrPk []) = true := by
  decide +kernel

end Cap.Examples
