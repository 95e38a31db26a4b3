/-
C48: every well-formed transfer can be generated.

status: partial
note: C48_partial: a transfer that meets the documented conditions (Spec.WellFormed) and the undocumented limits of the circuit (Spec.Limits) is generated, in both builds and for every randomness, with the expected fee, root, nullifiers and commitments, and the note is accepted at every time up to valid_until. C48_exact: given the documented conditions, and unless the threshold exceeds the amount moved by 2^127 or more, the limits are necessary as well, so they are the exact difference between the property as stated and the code. C48_false refutes the property as stated in every environment. Completeness of the SNARK is assumed. Amounts: the statement's bound (each amount below 2^127) is replaced by the total being below 2^127; see C25 for what happens above.
-/
import Verif.Props.C16
import Verif.Props.C47

namespace Cap

open Spec

variable [E : CapEnv] [S : CapExt]

section
variable {ni no : ℕ} {d : Fin 256} {valid_until : U64} {inputs : List TransferNoteInput} {outputs : List RecordOpening}
  {ad : AssetDefinition} {fee : Amount} {root : F} {pk : TransferProvingKey} {vk : TransferVerifyingKey}

/-- **Well-formed transfers within the limits are generated and accepted.** -/
theorem C48_partial (complete : SnarkComplete) (keys : transferPreprocess ni no d = .ok (pk, vk))
    (wf : WellFormed ni no d.val valid_until inputs outputs ad fee root) (limits : Limits valid_until inputs ad)
    (b : Build) (rng : TransferRand) (extra : List Byte) :
    ∃ n sk, TransferNote.generate b rng inputs outputs pk valid_until extra = .ok (n, sk) ∧
      n.aux_info.fee = fee ∧ n.aux_info.merkle_root = root ∧ n.aux_info.valid_until = valid_until ∧
      n.inputs_nullifiers = inputs.map nullifierOf ∧
      n.output_commitments = outputs.map RecordOpening.commitment ∧
      ∀ t, t ≤ valid_until → n.verify vk root t = .ok () := by
  obtain ⟨n, sk, w, pub, h, hfee, hroot⟩ := wf.generates limits complete keys b rng extra
  have gen := TransferNote.generate_ok.2 ⟨w, pub, h⟩
  obtain ⟨h1, h2, h3, h4⟩ := newUnchecked_ok.1 h.witness
  obtain ⟨s0, ss, o0, os, hf⟩ := fromWitness_ok.1 h.pub_eq
  obtain ⟨hv, hver⟩ := C17_generate keys complete gen
  refine ⟨n, sk, gen, hfee, hroot, h.note_valid, ?_, ?_, ?_⟩
  · rw [h.nullifiers, hf.nullifiers]
    refine (forall₂_map_eq (fun i s his => ?_) h4).symm
    obtain ⟨e1, e2, e3, -⟩ := inputSecretOf_ok.1 his
    unfold nullifierOf InputSecret.nullifier
    rw [e1, e2, e3]
  · rw [h.commitments, hf.commitments, h2]
  · rw [← hroot]
    exact hver

/-- **The limits are exact.** -/
theorem C48_exact (complete : SnarkComplete) (keys : transferPreprocess ni no d = .ok (pk, vk))
    (wf : WellFormed ni no d.val valid_until inputs outputs ad fee root)
    (near : ad.policy.viewer_pk = 0 ∨ ad.policy.reveal_threshold.val < moved inputs + 2 ^ 127)
    (b : Build) (rng : TransferRand) (extra : List Byte) :
    (∃ n sk, TransferNote.generate b rng inputs outputs pk valid_until extra = .ok (n, sk)) ↔
      Limits valid_until inputs ad := by
  constructor
  · rintro ⟨n, sk, gen⟩
    refine ⟨C38_window gen, fun i hi hc c he => (C38_fresh gen hi hc he).2, ?_⟩
    by_cases hv : ad.policy.viewer_pk = 0
    · exact Or.inl hv
    · right
      have hn := near.resolve_left hv
      by_cases ho : ad.policy.reveal_threshold.val < moved inputs
      · right
        refine ⟨ho, ?_⟩
        by_contra hcon
        simp only [not_or, not_forall] at hcon
        obtain ⟨hm, i, hi, hd, hy⟩ := hcon
        exact C47_refused hv ho hm wf.code_dummy hi hd hy b rng pk valid_until extra _ gen
      · left
        omega
  · intro hl
    obtain ⟨n, sk, w, pub, h, -⟩ := wf.generates hl complete keys b rng extra
    exact ⟨n, sk, TransferNote.generate_ok.2 ⟨w, pub, h⟩⟩

end

/-- **The property as stated is false**, in every environment and for every depth: a transfer of one coin meets the
documented conditions and is not generated (for a time outside the window of C38). -/
theorem C48_false (k : UserKeyPair) (d : Fin 256) :
    ∃ (valid_until : U64) (inputs : List TransferNoteInput) (outputs : List RecordOpening) (fee : Amount) (root : F),
      WellFormed 1 1 d.val valid_until inputs outputs AssetDefinition.native fee root ∧
      ∀ (b : Build) (rng : TransferRand) (pk : TransferProvingKey) (extra : List Byte) res,
        TransferNote.generate b rng inputs outputs pk valid_until extra ≠ .ok res := by
  refine ⟨⟨2 ^ 20, by norm_num⟩, _, _, _, _, onlyCoin_wellFormed k d.val _, ?_⟩
  rintro b rng pk extra ⟨n, sk⟩ gen
  have := C38_window gen
  simp at this

end Cap

namespace Cap.Examples
open Toy Spec

/-- the transfer of C16 is well-formed and within the limits; there is a key for it -/
example : WellFormed 2 2 1 900 (farInputs nearT) (farOutputs nearT) (farAsset nearT) 7 (farRoot nearT) ∧
    Limits 900 (farInputs nearT) (farAsset nearT) ∧ SnarkComplete ∧ transferPreprocess 2 2 1 = .ok (natPk, natVk) := by
  refine ⟨near_wellFormed, ⟨by decide, ?_, Or.inr (Or.inl ?_)⟩, Toy.complete, natKeys_eq⟩
  · have h : ∀ i ∈ farInputs nearT, i.ro.asset_def.policy.cred_pk = 0 := by decide +kernel
    exact fun i hi hc => absurd (h i hi) hc
  · decide +kernel

/-- the example transfer with three inputs, a dummy and a credential, over the threshold -/
theorem xfr_wellFormed : WellFormed 3 3 1 900 xfrInputs xfrOutputs asset 7 root where
  num_in := rfl
  num_out := rfl
  depth := by decide +kernel
  fee_in := ⟨_, _, rfl, rfl⟩
  fee_out := ⟨_, _, rfl, rfl⟩
  asset_in := by decide +kernel
  asset_out := by decide +kernel
  only_dummies := fun h => absurd (h xfrInputs[1] (by simp [xfrInputs])) (by decide +kernel)
  code_dummy := by decide +kernel
  code_native := by decide +kernel
  freezer_has_viewer := by decide +kernel
  owned := by decide +kernel
  unfrozen_in := by decide +kernel
  unfrozen_out := by decide +kernel
  member := by decide +kernel
  dummies := by decide +kernel
  once := by decide +kernel
  balanced := by
    refine checkBalance_small (b := .release) (fun c => ?_) (fun c => ?_) (by decide +kernel)
    · exact lt_of_le_of_lt (totalOf_le_total _ _) (by decide +kernel)
    · exact lt_of_le_of_lt (totalOf_le_total _ _) (by decide +kernel)
  small := by decide +kernel
  creds := by
    intro i hi hc
    simp only [xfrInputs, List.mem_cons, List.not_mem_nil, or_false] at hi
    rcases hi with rfl | rfl | rfl
    · exact absurd (by decide +kernel) hc
    · exact ⟨cred, rfl, by decide +kernel, by decide +kernel⟩
    · exact absurd (by decide +kernel) hc

/-- it is within the limits, above the threshold -/
example : Limits 900 xfrInputs asset := by
  refine ⟨by decide, ?_, Or.inr (Or.inr ?_)⟩
  · have h : ∀ i ∈ xfrInputs, ∀ c ∈ i.cred, c.expiry.val < 900 + 2 ^ 20 := by decide +kernel
    exact fun i hi _ c hc => h i hi c hc
  · exact ⟨by decide +kernel, Or.inl (by decide +kernel)⟩

end Cap.Examples
