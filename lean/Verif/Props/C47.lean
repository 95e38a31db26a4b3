/-
C47: the library's memo message equals the circuit's.

status: partial
note: C47_partial: for every witness whose inputs passed the asset check, whose credentials have eight attributes and whose asset code is not the dummy code, the library's plaintext (plainMessage, the message of the memo by C14) is the circuit's transferMsgV, if the two address bits of the map agree. C47_generated: for every transfer generate returns a note for, over the threshold, the two messages are equal without that condition. The property as stated fails for the maps whose address bits differ: C47_false (host checks pass, the messages differ), C47_refused (generate returns no note for such an asset over the threshold, for owners with a non-zero y coordinate).
-/
import Verif.Props.C14

namespace Cap

open Spec

variable [E : CapEnv] [S : CapExt]

omit S in
/-- **Equal messages.**  The witness is built by `newUnchecked`, the inputs and outputs pass the asset check, and the
two address bits agree. -/
theorem C47_partial {rand : Fr} {inputs : List TransferNoteInput} {outputs : List RecordOpening} {w : TransferWitness}
    (hw : TransferWitness.newUnchecked rand inputs outputs = .ok w)
    (asset : transferCheckAssetDef (inputs.map (·.ro)) outputs = .ok ()) {ad : AssetDefinition} (moves : Moves ad inputs)
    (code : ad.code ≠ dummyCode) (attrs : ∀ i ∈ inputs.tail, (attrsOf i).length = 8)
    (agree : ad.policy.reveal_map[0] = ad.policy.reveal_map[1]) :
    memoMessage ad (w.input_secrets.map (·.ro)) w.output_ros (w.input_secrets.map (·.cred)) = .ok (transferMsgV w.toV) := by
  obtain ⟨ad', ha⟩ := transferCheckAssetDef_ok.1 asset
  obtain rfl : ad = ad' := ha.moves moves
  obtain ⟨h1, h2, h3, h4⟩ := newUnchecked_ok.1 hw
  have hd : ∀ i ∈ inputs.tail, i.ro.asset_def.code = dummyCode → i.ro.asset_def = AssetDefinition.dummy := by
    intro i him hc
    refine (ha.ins i.ro (by rw [← List.map_tail]; exact List.mem_map_of_mem (f := (·.ro)) him)).resolve_right ?_
    intro he
    rw [he] at hc
    exact code hc
  rw [memoMessage_ok (by rw [h2]; exact ha.outs),
    transferMsgV_plain h4 (h1.trans (witnessAssetDef_eq ha.toAssetsAgree)) h2 (Or.inl agree) attrs hd]
  refine ⟨?_, ?_⟩
  · intro s hs
    obtain ⟨i, hi, hsi⟩ := forall₂_mem_right (forall₂_tail h4) s hs
    rw [← attrsOf_secret hsi]
    exact attrs i hi
  · rw [flatMap_secrets (forall₂_tail h4), h2]
    rfl

/-- **Generated notes.**  Over the threshold the plaintext of a generated note is the circuit's message. -/
theorem C47_generated {b : Build} {rng : TransferRand} {inputs : List TransferNoteInput}
    {outputs : List RecordOpening} {pk : TransferProvingKey} {valid_until : U64} {extra : List Byte}
    {n : TransferNote} {sk : Fr} (gen : TransferNote.generate b rng inputs outputs pk valid_until extra = .ok (n, sk))
    {ad : AssetDefinition} (moves : Moves ad inputs) (over : ad.policy.reveal_threshold.val < moved inputs)
    (named : ad.policy.viewer_pk ≠ 0) :
    ∃ w : TransferWitness, TransferWitness.newUnchecked rng.enc_rand inputs outputs = .ok w ∧
      OpensTransfer pk.n_inputs pk.n_outputs pk.tree_depth.val n w.toV ∧
      plainMessage ad inputs outputs = transferMsgV w.toV := by
  obtain ⟨w, pub, h⟩ := TransferNote.generate_ok.1 gen
  obtain ⟨ad', ha, hwa, hlt, hm⟩ := h.memo_eq
  obtain rfl := ha.moves moves
  rw [if_pos ⟨named, over⟩] at hm
  obtain ⟨h1, h2, h3, h4⟩ := newUnchecked_ok.1 h.witness
  have hopens : OpensTransfer pk.n_inputs pk.n_outputs pk.tree_depth.val n w.toV := by
    constructor
    · rw [h.pub_note]; exact h.shape h.sat
    · rw [h.pub_note]; exact h.sat
  refine ⟨w, h.witness, hopens, ?_⟩
  have hsum : sumTail (w.toV.inputs.map (·.ro.amount)) = ((moved inputs : ℕ) : F) := by
    obtain ⟨i0, is, o0, os, nl, nls, cm, cs, hp⟩ := hopens.sat.parts hopens.shape
    have hz : ∀ i ∈ is, i.ro.isDummy = false ∨ i.ro.amount = 0 := by
      intro i hi
      obtain ⟨x, -, hx⟩ := hp.mem_in hi
      exact hx.2.1
    have hd : ∀ i ∈ inputs.tail, i.ro.asset_def.code = dummyCode → i.ro.asset_def = AssetDefinition.dummy := by
      intro i him hc
      refine (ha.ins i.ro (by rw [← List.map_tail]; exact List.mem_map_of_mem (f := (·.ro)) him)).resolve_right ?_
      intro he
      rw [he] at hc
      exact moved_code_ne gen ha (by omega) hc
    have hwt : w.toV.inputs.tail = w.input_secrets.tail.map InputSecret.toV := by
      simp only [TransferWitness.toV, ← List.map_tail]
    have f1 := (secrets_filter (forall₂_tail h4) hd).1
    rw [← hwt, hp.inputs, List.tail_cons] at f1
    rw [hp.inputs, sumTail, List.map_cons, List.tail_cons, ← natSum_cast, natSum_real hz, f1]
    congr 1
    have := reads_total (l := (inputs.tail.filter (fun i => i.ro.asset_def ≠ AssetDefinition.dummy)).map (·.ro))
      (m := (inputs.tail.filter (fun i => i.ro.asset_def ≠ AssetDefinition.dummy)).map (·.ro.toV))
      (by
        rw [List.forall₂_map_left_iff, List.forall₂_map_right_iff]
        exact List.forall₂_same.2 (fun i _ => Reads.toV _))
    rw [this]
    unfold moved real
    rw [List.filter_map]
    rfl
  have hul : ¬ underLimit w.toV = true := by
    rw [underLimit_iff (t := ad.policy.reveal_threshold.val) (s := moved inputs)
      (lt_trans ad.policy.reveal_threshold.isLt (by norm_num)) (lt_trans hlt (by norm_num))
      (by simp only [TransferWitness.toV, hwa]; rfl) hsum]
    omega
  rcases hopens.sat.memo with (hm' | hm') | hm'
  · exact absurd hm' hul
  · have : ad.policy.toV.isDummyViewingPk = true := by
      simpa only [TransferWitness.toV, hwa] using hm'
    exact absurd ((isDummyViewingPk_host _).1 this) named
  · have hc : n.viewing_memo.toV = MemoV.derive w.toV.policy.viewer_pk (transferMsgV w.toV) w.toV.enc_rand :=
      of_decide_eq_true hm'
    rw [hm.2, viewerEncrypt_toV] at hc
    have hp : w.toV.policy.viewer_pk = E.xy ad.policy.viewer_pk := by simp only [TransferWitness.toV, hwa]; rfl
    have hr : w.toV.enc_rand = frToFq rng.enc_rand := by simp only [TransferWitness.toV, h3]
    rw [hp, hr] at hc
    simp only [MemoV.derive, MemoV.mk.injEq, true_and] at hc
    exact applyStream_inj _ _ hc

omit S in
/-- **Different messages.**  If the address bits of the map differ and some spent record (not the fee record, not a
dummy) has an owner whose y coordinate is not zero, the library's message is not the circuit's, whatever the other
values are. -/
theorem C47_false {rand : Fr} {inputs : List TransferNoteInput} {outputs : List RecordOpening} {w : TransferWitness}
    (hw : TransferWitness.newUnchecked rand inputs outputs = .ok w)
    (asset : transferCheckAssetDef (inputs.map (·.ro)) outputs = .ok ()) {ad : AssetDefinition}
    (code : ad.code ≠ dummyCode) {i : TransferNoteInput} (hi : i ∈ inputs.tail) (hdef : i.ro.asset_def = ad)
    (hy : ptY i.ro.pub_key.address ≠ 0) (differ : ad.policy.reveal_map[0] ≠ ad.policy.reveal_map[1]) :
    memoMessage ad (w.input_secrets.map (·.ro)) w.output_ros (w.input_secrets.map (·.cred)) ≠ .ok (transferMsgV w.toV) := by
  have moves : Moves ad inputs := ⟨fun h => code (by rw [h]; rfl), i, hi, hdef⟩
  obtain ⟨ad', ha⟩ := transferCheckAssetDef_ok.1 asset
  obtain rfl : ad = ad' := ha.moves moves
  obtain ⟨h1, h2, h3, h4⟩ := newUnchecked_ok.1 hw
  have hwa := h1.trans (witnessAssetDef_eq ha.toAssetsAgree)
  intro hm
  obtain ⟨hattr, hmsg⟩ := (memoMessage_ok (by rw [h2]; exact ha.outs)).1 hm
  unfold transferMsgV at hmsg
  simp only [TransferWitness.toV, hwa, AssetPolicy.toV, ← List.map_tail, List.flatMap_map, List.cons_append,
    List.nil_append, List.cons.injEq, true_and] at hmsg
  have key : ∀ {l : List InputSecret} {r r' : List F}, (∀ s ∈ l, s.cred.attrs.length = 8) →
      l.flatMap (fun s => inputMsgV ad.policy.reveal_map.toScalar s.toV) ++ r =
        l.flatMap (fun s => plainInput ad.policy.reveal_map s.ro s.cred.attrs) ++ r' →
      ∀ s ∈ l, inputMsgV ad.policy.reveal_map.toScalar s.toV = plainInput ad.policy.reveal_map s.ro s.cred.attrs := by
    intro l
    induction l with
    | nil => simp
    | cons s l ih =>
      intro r r' hl he
      have hl8 := hl s (by simp)
      simp only [List.flatMap_cons, List.append_assoc] at he
      have hlen : (inputMsgV ad.policy.reveal_map.toScalar s.toV).length =
          (plainInput ad.policy.reveal_map s.ro s.cred.attrs).length := by
        rw [inputMsgV_length (i := s.toV) hl8]
        unfold plainInput
        have : (if s.ro.asset_def = AssetDefinition.dummy then [ptX (0 : Pt), ptY (0 : Pt)]
          else [shown ad.policy.reveal_map[0] (ptX s.ro.pub_key.address),
            shown ad.policy.reveal_map[1] (ptY s.ro.pub_key.address)]).length = 2 := by split <;> rfl
        rw [List.length_append, List.length_append, this, List.length_zipWith, hl8, List.length_drop,
          Vector.length_toList]
        rfl
      obtain ⟨e1, e2⟩ := List.append_inj he hlen
      intro x hx
      rcases List.mem_cons.1 hx with rfl | hx
      · exact e1
      · exact ih (fun y hy => hl y (List.mem_cons_of_mem _ hy)) e2 x hx
  obtain ⟨s, hs, hsi⟩ := forall₂_mem_right (forall₂_tail h4).flip i hi
  have hr : s.ro = i.ro := (inputSecretOf_ok.1 hsi).2.1
  have he := key hattr hmsg s hs
  have hnd : s.toV.ro.isDummy = false := by
    rw [← Bool.not_eq_true]
    show ¬ s.ro.toV.isDummy = true
    rw [RecordOpening.toV_isDummy, hr, hdef]
    exact code
  rw [inputMsgV_host hnd (hattr s hs)] at he
  unfold plainInput at he
  rw [if_neg (by rw [hr, hdef]; exact ha.not_dummy)] at he
  simp only [List.cons_append, List.nil_append, List.cons.injEq] at he
  have he2 := he.2.1
  have hy' : (E.xy s.ro.pub_key.address).2 ≠ 0 := by rw [hr]; exact hy
  have hown : s.toV.ro.owner_addr = E.xy s.ro.pub_key.address := rfl
  rw [shown_eq, hown] at he2
  cases h0 : ad.policy.reveal_map[0] <;> cases h1' : ad.policy.reveal_map[1]
  · exact differ (h0.trans h1'.symm)
  · rw [h0, h1'] at he2
    simp only [boolF, Bool.false_eq_true, if_false, if_true, zero_mul, one_mul] at he2
    exact hy' he2.symm
  · rw [h0, h1'] at he2
    simp only [boolF, Bool.false_eq_true, if_false, if_true, zero_mul, one_mul] at he2
    exact hy' he2
  · exact differ (h0.trans h1'.symm)

/-- **Refused.**  So `generate` returns no note for a transfer over the threshold of such an asset. -/
theorem C47_refused {inputs : List TransferNoteInput} {outputs : List RecordOpening} {ad : AssetDefinition}
    (named : ad.policy.viewer_pk ≠ 0) (over : ad.policy.reveal_threshold.val < moved inputs)
    (differ : ad.policy.reveal_map[0] ≠ ad.policy.reveal_map[1]) (code : ad.code ≠ dummyCode)
    {i : TransferNoteInput} (hi : i ∈ inputs.tail) (hdef : i.ro.asset_def = ad) (hy : ptY i.ro.pub_key.address ≠ 0)
    (b : Build) (rng : TransferRand) (pk : TransferProvingKey) (valid_until : U64) (extra : List Byte) :
    ∀ res, TransferNote.generate b rng inputs outputs pk valid_until extra ≠ .ok res := by
  rintro ⟨n, sk⟩ gen
  have moves : Moves ad inputs := ⟨fun h => code (by rw [h]; rfl), i, hi, hdef⟩
  obtain ⟨w, hw, -, heq⟩ := C47_generated gen moves over named
  obtain ⟨w', pub, h⟩ := TransferNote.generate_ok.1 gen
  obtain ⟨ad', ha, -, -, hm⟩ := h.memo_eq
  obtain rfl : ad = ad' := ha.moves moves
  rw [if_pos ⟨named, over⟩] at hm
  obtain ⟨h1, h2, h3, h4⟩ := newUnchecked_ok.1 hw
  refine C47_false hw h.asset code hi hdef hy differ ?_
  rw [memoMessage_ok (by rw [h2]; exact ha.outs), ← heq]
  refine ⟨?_, ?_⟩
  · intro s hs
    obtain ⟨j, hj, hsj⟩ := forall₂_mem_right (forall₂_tail h4) s hs
    rw [← attrsOf_secret hsj]
    exact hm.1 j hj
  · rw [flatMap_secrets (forall₂_tail h4), h2]
    rfl

end Cap

namespace Cap.Examples
open Toy Spec

/-- the example transfer meets the hypotheses of `C47_partial` and `C47_generated` -/
example : isOk (TransferWitness.newUnchecked rng.enc_rand xfrInputs xfrOutputs) = true ∧
    transferCheckAssetDef (xfrInputs.map (·.ro)) xfrOutputs = .ok () ∧ Moves asset xfrInputs ∧
    asset.code ≠ dummyCode ∧ (∀ i ∈ xfrInputs.tail, (attrsOf i).length = 8) ∧
    asset.policy.reveal_map[0] = asset.policy.reveal_map[1] ∧ asset.policy.reveal_threshold.val < moved xfrInputs ∧
    asset.policy.viewer_pk ≠ 0 :=
  ⟨by decide +kernel, by decide +kernel,
   ⟨by decide +kernel, ⟨assetRec, acc1, alice, some cred⟩, by simp [xfrInputs], rfl⟩, by decide +kernel,
   by decide +kernel, by decide +kernel, by decide +kernel, by decide +kernel⟩

/-- Alice's record of the asset with the odd map, under its own root -/
def oddRec : RecordOpening := { assetRec with asset_def := oddAsset }
/-- the leaves and the root of a tree with the fee record and the odd record -/
def oddRoot : ZMod p := E.nodeHash (E.leafHash 0 feeRec.commitment) (E.leafHash 1 oddRec.commitment) 0
/-- inputs: fee record and odd record -/
def oddInputs : List TransferNoteInput :=
  [⟨feeRec, ⟨[⟨E.leafHash 1 oddRec.commitment, 0, .left⟩], oddRoot, 0⟩, alice, none⟩,
   ⟨oddRec, ⟨[⟨E.leafHash 0 feeRec.commitment, 0, .middle⟩], oddRoot, 1⟩, alice, some cred⟩]
/-- outputs: fee change and everything to Bob -/
def oddOutputs : List RecordOpening := [chgRec, { outBob with asset_def := oddAsset, amount := 50 }]

/-- `C47_false` and `C47_refused` apply to the asset with the odd map, whose transfer passes all the checks of the
library: what fails is the proof -/
example : transferCheckAssetDef (oddInputs.map (·.ro)) oddOutputs = .ok () ∧
    isOk (TransferWitness.newUnchecked rng.enc_rand oddInputs oddOutputs) = true ∧
    oddAsset.policy.viewer_pk ≠ 0 ∧ oddAsset.policy.reveal_threshold.val < moved oddInputs ∧
    oddAsset.policy.reveal_map[0] ≠ oddAsset.policy.reveal_map[1] ∧ oddAsset.code ≠ dummyCode ∧
    (∃ i ∈ oddInputs.tail, i.ro.asset_def = oddAsset ∧ ptY i.ro.pub_key.address ≠ 0) ∧
    (TransferNote.generate .release rng oddInputs oddOutputs natPk 900 [] matches .error .failedSnark) := by
  refine ⟨by decide +kernel, by decide +kernel, by decide +kernel, by decide +kernel, by decide +kernel,
    by decide +kernel, ⟨oddInputs[1], by simp [oddInputs], rfl, by decide +kernel⟩, ?_⟩
  decide +kernel

end Cap.Examples
