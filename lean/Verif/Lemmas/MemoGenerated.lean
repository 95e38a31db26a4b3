/-
Helper lemmas: the memo of a generated transfer, and the message recomputed by the circuit.
-/
import Verif.Lemmas.MemoHost
import Verif.Lemmas.Opened

namespace Cap

open Spec

variable [E : CapEnv]

/-- the asset moved is the one the checks determined -/
theorem AssetsAgree.moves {ad ad' : AssetDefinition} {inputs : List TransferNoteInput} {outputs : List RecordOpening}
    (h : AssetsAgree ad (inputs.map (·.ro)) outputs) (hm : Moves ad' inputs) : ad' = ad := by
  obtain ⟨hd, i, hi, rfl⟩ := hm
  refine (h.ins i.ro ?_).resolve_left hd
  rw [← List.map_tail]
  exact List.mem_map_of_mem (f := (·.ro)) hi

theorem moved_secrets {inputs : List TransferNoteInput} {ss : List InputSecret}
    (h : List.Forall₂ (fun a b => inputSecretOf a = .ok b) inputs ss) :
    total (real (ss.map (·.ro)).tail) = moved inputs := by
  rw [secrets_ro h, moved, List.map_tail]

/-- the library's memo of a transfer, over and under the threshold -/
theorem newForTransferNote_ok {ad : AssetDefinition} {inputs : List TransferNoteInput} {outputs : List RecordOpening}
    {ss : List InputSecret} {rand : Fr} {memo : ViewableMemo} (ha : AssetsAgree ad (inputs.map (·.ro)) outputs)
    (h : List.Forall₂ (fun a b => inputSecretOf a = .ok b) inputs ss) :
    ViewableMemo.newForTransferNote (ss.map (·.ro)) outputs (ss.map (·.cred)) rand = .ok memo ↔
      moved inputs < 2 ^ 128 ∧
      if ad.policy.viewer_pk ≠ 0 ∧ ad.policy.reveal_threshold.val < moved inputs then
        (∀ i ∈ inputs.tail, (attrsOf i).length = 8) ∧
        memo = viewerEncrypt ad.policy.viewer_pk rand (plainMessage ad inputs outputs)
      else memo = viewerEncrypt (E.randViewerPk rand) rand
        (List.replicate ((inputs.length - 1) * 12 + (outputs.length - 1) * 4 + 1) 0) := by
  have hro := secrets_ro h
  have had : getAssetDefInTransferTxn (ss.map (·.ro)) = .ok ad := by rw [hro]; exact getAssetDef_eq ha
  have hnd : ad.isDummy = false := by
    rw [← Bool.not_eq_true, AssetDefinition.isDummy_iff]; exact ha.not_dummy
  have hattr : (∀ s ∈ ss.tail, s.cred.attrs.length = 8) ↔ ∀ i ∈ inputs.tail, (attrsOf i).length = 8 := by
    have ht := forall₂_tail h
    constructor
    · intro hs i hi
      obtain ⟨s, hs', hsi⟩ := forall₂_mem_right ht.flip i hi
      rw [attrsOf_secret hsi]; exact hs s hs'
    · intro hs s hi
      obtain ⟨i, hi', hsi⟩ := forall₂_mem_right ht s hi
      rw [← attrsOf_secret hsi]; exact hs i hi'
  have hlen : ss.length = inputs.length := secrets_length h
  have hne : inputs.length ≠ 0 ∧ outputs.length ≠ 0 := by
    obtain ⟨i0, is, hi, -⟩ := ha.fee_in
    obtain ⟨o0, os, ho, -⟩ := ha.fee_out
    have := congrArg List.length hi
    rw [List.length_map, List.length_cons] at this
    rw [ho, List.length_cons]
    omega
  have hsum := moved_secrets h
  unfold ViewableMemo.newForTransferNote
  simp only [had, bind, Except.bind]
  rw [if_neg (by rw [hnd]; decide)]
  cases hamt : memoTransferAmount (ss.map (·.ro)) with
  | none =>
    simp only [reduceCtorEq, false_iff, not_and]
    intro hlt
    exfalso
    unfold memoTransferAmount at hamt
    rw [safeSumAmount_eq_none, ← real_eq, map_amount_val, hsum] at hamt
    omega
  | some amt =>
    have hv := memoTransferAmount_some hamt
    rw [hsum] at hv
    have hlt : moved inputs < 2 ^ 128 := by rw [← hv]; exact amt.isLt
    have hcmp : ad.policy.reveal_threshold < amt ↔ ad.policy.reveal_threshold.val < moved inputs := by
      rw [← hv]; rfl
    simp only [hcmp]
    rw [and_iff_right hlt]
    split
    · have hmsg := @memoMessage_ok E ad ss outputs
      rw [hattr, flatMap_secrets (forall₂_tail h)] at hmsg
      constructor
      · intro hm
        split at hm
        · cases hm
        · rename_i msg hmm
          obtain ⟨h1, h2⟩ := (hmsg ha.outs).1 hmm
          rw [h2] at hm
          exact ⟨h1, (Except.ok.inj hm).symm⟩
      · rintro ⟨h1, rfl⟩
        rw [(hmsg ha.outs).2 ⟨h1, rfl⟩]
        rfl
    · unfold ViewableMemo.dummyForTransferNote
      rw [List.length_map, hlen, if_neg (by omega)]
      simp only [VIEWABLE_DATA_LEN, REVEAL_MAP_LEN, ATTRS_LEN, Except.ok.injEq, Nat.reduceAdd]
      exact eq_comm

/-- The circuit's part of the message for an input is the library's, if the two address bits agree and the circuit and
the library agree on whether it is a dummy. -/
theorem inputMsgV_plain {m : RevealMap} {s : InputSecret} (ha : s.cred.attrs.length = 8)
    (h01 : m[0] = m[1] ∨ (s.ro.asset_def ≠ AssetDefinition.dummy → ptY s.ro.pub_key.address = 0))
    (hd : s.ro.asset_def.code = dummyCode → s.ro.asset_def = AssetDefinition.dummy) :
    inputMsgV m.toScalar s.toV = plainInput m s.ro s.cred.attrs := by
  have hsh : (shown : Bool → F → F) = fun b v => boolF b * v := by funext b v; exact shown_eq b v
  by_cases h : s.ro.asset_def = AssetDefinition.dummy
  · rw [inputMsgV_dummy (i := s.toV) ((RecordOpening.toV_isDummy _).2 (by rw [h]; rfl)) ha]
    unfold plainInput
    rw [if_pos h]
    simp only [ptX, ptY, E.xy_zero, hsh]
    rfl
  · rw [inputMsgV_host (i := s.toV) (by
      rw [← Bool.not_eq_true]
      exact fun hc => h (hd ((RecordOpening.toV_isDummy _).1 hc))) ha]
    unfold plainInput
    rw [if_neg h]
    rcases h01 with h01 | h01
    · simp only [hsh, ← h01]
      rfl
    · have hy : (E.xy s.ro.pub_key.address).2 = 0 := h01 h
      have hy' : ptY s.ro.pub_key.address = 0 := hy
      simp only [hsh, hy', mul_zero, show s.toV.ro.owner_addr = E.xy s.ro.pub_key.address from rfl, hy]
      rfl

theorem outputMsgV_plain (m : RevealMap) (o : RecordOpening) : outputMsgV m.toScalar o.toV = plainOutput m o := by
  rw [outputMsgV_host]
  simp only [plainOutput, shown_eq]
  rfl

/-- the circuit's message is the library's -/
theorem transferMsgV_plain {ad : AssetDefinition} {inputs : List TransferNoteInput} {outputs : List RecordOpening}
    {w : TransferWitness} (h : List.Forall₂ (fun a b => inputSecretOf a = .ok b) inputs w.input_secrets)
    (hw : w.asset_def = ad) (ho : w.output_ros = outputs)
    (h01 : ad.policy.reveal_map[0] = ad.policy.reveal_map[1] ∨
      ∀ i ∈ inputs.tail, i.ro.asset_def ≠ AssetDefinition.dummy → ptY i.ro.pub_key.address = 0) (hattr : ∀ i ∈ inputs.tail, (attrsOf i).length = 8)
    (hd : ∀ i ∈ inputs.tail, i.ro.asset_def.code = dummyCode → i.ro.asset_def = AssetDefinition.dummy) :
    transferMsgV w.toV = plainMessage ad inputs outputs := by
  unfold transferMsgV plainMessage
  have h1 : w.toV.outputs.tail.flatMap (outputMsgV w.toV.policy.reveal_map) =
      outputs.tail.flatMap (plainOutput ad.policy.reveal_map) := by
    simp only [TransferWitness.toV, ho, hw, AssetPolicy.toV, ← List.map_tail, List.flatMap_map]
    exact List.flatMap_congr (fun o _ => outputMsgV_plain _ o)
  have h2 : w.toV.inputs.tail.flatMap (inputMsgV w.toV.policy.reveal_map) =
      inputs.tail.flatMap (fun i => plainInput ad.policy.reveal_map i.ro (attrsOf i)) := by
    have ht := forall₂_tail h
    rw [← flatMap_secrets ht]
    simp only [TransferWitness.toV, hw, AssetPolicy.toV, ← List.map_tail, List.flatMap_map]
    refine List.flatMap_congr (fun s hs => ?_)
    obtain ⟨i, hi, hsi⟩ := forall₂_mem_right ht s hs
    have hr := (inputSecretOf_ok.1 hsi).2.1
    exact inputMsgV_plain (by rw [← attrsOf_secret hsi]; exact hattr i hi)
      (h01.imp id (fun hz => by rw [hr]; exact hz i hi)) (by rw [hr]; exact hd i hi)
  rw [h1, h2]
  simp only [TransferWitness.toV, hw]
  rfl

variable [S : CapExt]

/-- the memo of a generated transfer -/
theorem TransferGen.memo_eq {b rng inputs outputs pk valid_until extra n sk w pub}
    (h : TransferGen b rng inputs outputs pk valid_until extra n sk w pub) :
    ∃ ad, AssetsOk ad (inputs.map (·.ro)) outputs ∧ w.asset_def = ad ∧ moved inputs < 2 ^ 128 ∧
      if ad.policy.viewer_pk ≠ 0 ∧ ad.policy.reveal_threshold.val < moved inputs then
        (∀ i ∈ inputs.tail, (attrsOf i).length = 8) ∧
        n.viewing_memo = viewerEncrypt ad.policy.viewer_pk rng.enc_rand (plainMessage ad inputs outputs)
      else n.viewing_memo = viewerEncrypt (E.randViewerPk rng.enc_rand) rng.enc_rand
        (List.replicate ((inputs.length - 1) * 12 + (outputs.length - 1) * 4 + 1) 0) := by
  obtain ⟨ad, ha⟩ := transferCheckAssetDef_ok.1 h.asset
  obtain ⟨h1, h2, h3, h4⟩ := newUnchecked_ok.1 h.witness
  obtain ⟨s0, ss, o0, os, hf⟩ := fromWitness_ok.1 h.pub_eq
  have hm := hf.memo
  rw [h2, h3, ← h.memo, newForTransferNote_ok ha.toAssetsAgree h4] at hm
  exact ⟨ad, ha, h1.trans (witnessAssetDef_eq ha.toAssetsAgree), hm⟩

end Cap
