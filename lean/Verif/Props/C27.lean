/-
C27: a proof is tied to one statement.

status: partial
note: False as stated for transfer and freeze notes: the scalar vector has no boundary between nullifiers and commitments and verify does not compare their numbers with the key, so from every accepted note one can make a different accepted note (C27_transfer_false, C27_freeze_false). Proved for notes with equal numbers of nullifiers and commitments (C27_transfer_partial, C27_freeze_partial) and in full for mint notes (C27_mint).
-/
import Verif.Lemmas.Verify
import Verif.Props.C17
import Verif.Props.C18
import Verif.Props.C19

namespace Cap

variable [E : CapEnv] [S : CapExt]

/-- Full statement, false: "if two transfer notes lead the verifier to the same scalar vector, they are the same
statement".  From *every* accepted transfer note with at least one output, moving its first output commitment
to the end of the nullifiers gives a different note that is accepted under the same key, root and time with the
same proof: a ledger would mark the commitment as a spent nullifier and not create the record. -/
theorem C27_transfer_false (n : TransferNote) (vk : TransferVerifyingKey) (root : F) (t : U64) (c : F)
    (cs : List F) (hc : n.output_commitments = c :: cs) (h : n.verify vk root t = .ok ()) :
    ∃ n' : TransferNote, n'.verify vk root t = .ok () ∧ n'.proof = n.proof ∧ n'.aux_info = n.aux_info ∧
      n'.inputs_nullifiers = n.inputs_nullifiers ++ [c] ∧ n'.output_commitments = cs ∧ n'.pub ≠ n.pub := by
  refine ⟨{ n with inputs_nullifiers := n.inputs_nullifiers ++ [c], output_commitments := cs }, ?_, rfl, rfl, rfl,
    rfl, ?_⟩
  · rw [TransferNote.verify_ok] at h ⊢
    refine ⟨h.1, h.2.1, ?_⟩
    have : (TransferNote.pub { n with inputs_nullifiers := n.inputs_nullifiers ++ [c], output_commitments := cs }).toScalars
        = n.pub.toScalars := by
      simp [TransferNote.pub, TransferPublicInput.toScalars, hc]
    rw [this]
    exact h.2.2
  · intro he
    have := congrArg (fun p : TransferPublicInput => p.output_commitments.length) he
    simp [TransferNote.pub, hc] at this

/-- The same for freeze notes. -/
theorem C27_freeze_false (n : FreezeNote) (vk : FreezeVerifyingKey) (root : F) (c : F)
    (cs : List F) (hc : n.output_commitments = c :: cs) (h : n.verify vk root = .ok ()) :
    ∃ n' : FreezeNote, n'.verify vk root = .ok () ∧ n'.proof = n.proof ∧ n'.aux_info = n.aux_info ∧
      n'.input_nullifiers = n.input_nullifiers ++ [c] ∧ n'.output_commitments = cs ∧ n'.pub ≠ n.pub := by
  refine ⟨{ n with input_nullifiers := n.input_nullifiers ++ [c], output_commitments := cs }, ?_, rfl, rfl, rfl,
    rfl, ?_⟩
  · rw [FreezeNote.verify_ok] at h ⊢
    refine ⟨h.1, ?_⟩
    have : (FreezeNote.pub { n with input_nullifiers := n.input_nullifiers ++ [c], output_commitments := cs }).toScalars
        = n.pub.toScalars := by
      simp [FreezeNote.pub, FreezePublicInput.toScalars, hc]
    rw [this]
    exact h.2
  · intro he
    have := congrArg (fun p : FreezePublicInput => p.output_commitments.length) he
    simp [FreezeNote.pub, hc] at this

/-- Partial: with the same number of nullifiers and of commitments, equal scalar vectors are equal statements:
root, fee, expiry, nullifiers, commitments and memo. -/
theorem C27_transfer_partial (n n' : TransferNote)
    (hn : n.inputs_nullifiers.length = n'.inputs_nullifiers.length)
    (hc : n.output_commitments.length = n'.output_commitments.length)
    (h : n.pub.toScalars = n'.pub.toScalars) :
    n.aux_info.merkle_root = n'.aux_info.merkle_root ∧ n.aux_info.fee = n'.aux_info.fee ∧
    n.aux_info.valid_until = n'.aux_info.valid_until ∧ n.inputs_nullifiers = n'.inputs_nullifiers ∧
    n.output_commitments = n'.output_commitments ∧ n.viewing_memo = n'.viewing_memo := by
  have he : n.pub = n'.pub := TransferPublicInput.toScalars_inj hn hc h
  simp only [TransferNote.pub, TransferPublicInput.mk.injEq] at he
  exact ⟨he.1, he.2.2.2.1, he.2.2.1, he.2.2.2.2.1, he.2.2.2.2.2.1, he.2.2.2.2.2.2⟩

/-- Partial, freeze notes (here equal numbers of nullifiers suffice). -/
theorem C27_freeze_partial (n n' : FreezeNote)
    (hn : n.input_nullifiers.length = n'.input_nullifiers.length)
    (h : n.pub.toScalars = n'.pub.toScalars) :
    n.aux_info.merkle_root = n'.aux_info.merkle_root ∧ n.aux_info.fee = n'.aux_info.fee ∧
    n.input_nullifiers = n'.input_nullifiers ∧ n.output_commitments = n'.output_commitments := by
  have he : n.pub = n'.pub := FreezePublicInput.toScalars_inj hn h
  simp only [FreezeNote.pub, FreezePublicInput.mk.injEq] at he
  exact ⟨he.1, he.2.2.1, he.2.2.2.1, he.2.2.2.2⟩

/-- Mint notes, in full: equal scalar vectors are equal statements. -/
theorem C27_mint (n n' : MintNote) (h : n.pub.toScalars = n'.pub.toScalars) :
    n.aux_info.merkle_root = n'.aux_info.merkle_root ∧ n.aux_info.fee = n'.aux_info.fee ∧
    n.input_nullifier = n'.input_nullifier ∧ n.mint_comm = n'.mint_comm ∧ n.chg_comm = n'.chg_comm ∧
    n.mint_amount = n'.mint_amount ∧ n.mint_asset_def = n'.mint_asset_def ∧
    n.mint_internal_asset_code = n'.mint_internal_asset_code ∧ n.viewing_memo = n'.viewing_memo := by
  have he : n.pub = n'.pub := MintPublicInput.toScalars_inj h
  simp only [MintNote.pub, MintPublicInput.mk.injEq] at he
  obtain ⟨h1, -, h3, h4, h5, h6, h7, h8, h9, h10, h11⟩ := he
  refine ⟨h1, h4, h3, h5, h6, h7, ?_, h9, h11⟩
  rcases hd : n.mint_asset_def with ⟨a, b⟩
  rcases hd' : n'.mint_asset_def with ⟨a', b'⟩
  rw [hd, hd'] at h8 h10
  rw [show a = a' from h8, show b = b' from h10]

end Cap

namespace Cap.Examples
open Toy

/-- an accepted transfer note and an accepted freeze note with outputs: the hypotheses of the two negations -/
example : (∃ c cs, xfrNote.output_commitments = c :: cs ∧
      xfrNote.verify xfrVk xfrNote.aux_info.merkle_root 900 = .ok ()) ∧
    ∃ c cs, frzNote.output_commitments = c :: cs ∧ frzNote.verify frzVk frzNote.aux_info.merkle_root = .ok () := by
  refine ⟨?_, ⟨_, _, (C19_outputs frzNote_eq).1, frzNote_verify⟩⟩
  obtain ⟨w, pub, h⟩ := TransferNote.generate_ok.1 xfrNote_eq
  obtain ⟨s0, ss, o0, os, hf⟩ := fromWitness_ok.1 h.pub_eq
  have hc : xfrNote.output_commitments = o0.commitment :: os.map RecordOpening.commitment := by
    rw [h.commitments, hf.commitments, hf.outputs]
    rfl
  exact ⟨_, _, hc, xfrNote_verify _ (by decide)⟩

/-- two notes that differ in what is not part of the vector only -/
example : xfrNote.pub.toScalars = (TransferNote.pub { xfrNote with proof := ([] : List Byte) }).toScalars ∧
    frzNote.pub.toScalars = (FreezeNote.pub { frzNote with proof := ([] : List Byte) }).toScalars ∧
    mintNote.pub.toScalars = (MintNote.pub { mintNote with proof := ([] : List Byte) }).toScalars := ⟨rfl, rfl, rfl⟩

end Cap.Examples
