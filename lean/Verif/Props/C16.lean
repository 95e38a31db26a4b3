/-
C16: below the reveal threshold nothing is disclosed and the transfer still goes through.

status: partial
note: Nothing is disclosed: C16_independent (the memo of a generated transfer below the threshold, or without viewer, is a function of the encryption randomness and of the numbers of inputs and outputs only), for all amounts and thresholds. Goes through: C16_circuit_partial and C16_generated_partial, if the threshold exceeds the amount by less than 2^127. Beyond that the circuit's comparison is wrong (it takes the transfer to be over the threshold) while the library writes an empty memo: C16_false shows that such a transfer is only generated if the empty memo happens to decrypt to the full message, and that of two such transfers of different assets at most one is generated; the example is refused.
-/
import Verif.Props.C38

namespace Cap

open Spec

variable [E : CapEnv] [S : CapExt]

omit S in
/-- the memo that discloses nothing: zeros, encrypted to a random key -/
def emptyMemo (rand : Fr) (ni no : ℕ) : ViewableMemo :=
  viewerEncrypt (E.randViewerPk rand) rand (List.replicate ((ni - 1) * 12 + (no - 1) * 4 + 1) 0)

/-- the amount moved, in the circuit -/
theorem TransferGen.sumTail_moved {b rng inputs outputs pk valid_until extra n sk w pub}
    (h : TransferGen b rng inputs outputs pk valid_until extra n sk w pub) :
    sumTail (w.toV.inputs.map (·.ro.amount)) = ((moved inputs : ℕ) : F) := by
  obtain ⟨h1, h2, h3, h4⟩ := newUnchecked_ok.1 h.witness
  obtain ⟨-, -, -, -, -, -, -, hz, -⟩ := C40_generate (TransferNote.generate_ok.2 ⟨w, pub, h⟩)
  unfold moved
  rw [total_real, castAmounts, ← secrets_ro (forall₂_tail h4)]
  · simp only [TransferWitness.toV, sumTail, ← List.map_tail, List.map_map]
    rfl
  · intro r hr hd
    obtain ⟨i, hi, rfl⟩ := List.mem_map.1 hr
    exact hz i (List.mem_of_mem_tail hi) hd

/-- **Nothing is disclosed.**  The memo is the empty one. -/
theorem C16_empty {b : Build} {rng : TransferRand} {inputs : List TransferNoteInput}
    {outputs : List RecordOpening} {pk : TransferProvingKey} {valid_until : U64} {extra : List Byte}
    {n : TransferNote} {sk : Fr} (gen : TransferNote.generate b rng inputs outputs pk valid_until extra = .ok (n, sk))
    (under : ∀ ad, Moves ad inputs → ad.policy.viewer_pk = 0 ∨ moved inputs ≤ ad.policy.reveal_threshold.val) :
    n.viewing_memo = emptyMemo rng.enc_rand inputs.length outputs.length := by
  obtain ⟨w, pub, h⟩ := TransferNote.generate_ok.1 gen
  obtain ⟨ad, ha, hwa, hlt, hm⟩ := h.memo_eq
  rw [if_neg] at hm
  · exact hm
  · rintro ⟨hv, ho⟩
    have hmv : Moves ad inputs := by
      refine ⟨ha.not_dummy, ?_⟩
      by_contra hcon
      have : ∀ r ∈ (inputs.map (·.ro)).tail, r.asset_def = AssetDefinition.dummy := by
        intro r hr
        refine (ha.ins r hr).resolve_right (fun hra => hcon ?_)
        rw [← List.map_tail] at hr
        obtain ⟨i, hi, rfl⟩ := List.mem_map.1 hr
        exact ⟨i, hi, hra⟩
      exact hv (by rw [ha.none this]; rfl)
    rcases under ad hmv with h1 | h1
    · exact hv h1
    · omega

/-- **The memo is independent of the records.**  Two transfers with the same numbers of inputs and outputs, both below
their thresholds, of whatever assets, owners and amounts: with the same encryption randomness they have the same
memo. -/
theorem C16_independent {b b' : Build} {rng rng' : TransferRand} {inputs inputs' : List TransferNoteInput}
    {outputs outputs' : List RecordOpening} {pk pk' : TransferProvingKey} {t t' : U64} {extra extra' : List Byte}
    {n n' : TransferNote} {sk sk' : Fr} (gen : TransferNote.generate b rng inputs outputs pk t extra = .ok (n, sk))
    (gen' : TransferNote.generate b' rng' inputs' outputs' pk' t' extra' = .ok (n', sk'))
    (under : ∀ ad, Moves ad inputs → ad.policy.viewer_pk = 0 ∨ moved inputs ≤ ad.policy.reveal_threshold.val)
    (under' : ∀ ad, Moves ad inputs' → ad.policy.viewer_pk = 0 ∨ moved inputs' ≤ ad.policy.reveal_threshold.val)
    (ins : inputs.length = inputs'.length) (outs : outputs.length = outputs'.length)
    (rand : rng.enc_rand = rng'.enc_rand) : n.viewing_memo = n'.viewing_memo := by
  rw [C16_empty gen under, C16_empty gen' under', ins, outs, rand]

omit S in
/-- **The circuit asks for no memo**, if the amount is below the threshold by less than 2^127: it accepts every memo
of the right length. -/
theorem C16_circuit_partial {w : TransferWit} {p : TransferPub} {t s : ℕ} (ht : t < 2 ^ 128) (hs : s < 2 ^ 128)
    (h1 : w.policy.reveal_threshold = (t : F)) (h2 : sumTail (w.inputs.map (·.ro.amount)) = (s : F))
    (sat : TransferSat w p) (under : s ≤ t) (close : t - s < 2 ^ 127) {m : MemoV}
    (len : m.data.length = p.memo.data.length) : TransferSat w { p with memo := m } :=
  ⟨sat.inputs, sat.outputs, sat.balance, sat.map_range, sat.rand_ok, len.trans sat.memo_len,
    Or.inl (Or.inl ((underLimit_iff (by omega) (by omega) h1 h2).2 ⟨under, close⟩))⟩

/-- **It goes through**, under the same condition (and those of C38). -/
theorem C16_generated_partial {ni no : ℕ} {d : Fin 256} {valid_until : U64} {inputs : List TransferNoteInput}
    {outputs : List RecordOpening} {ad : AssetDefinition} {fee : Amount} {root : F} {pk : TransferProvingKey}
    {vk : TransferVerifyingKey} (complete : SnarkComplete) (keys : transferPreprocess ni no d = .ok (pk, vk))
    (wf : WellFormed ni no d.val valid_until inputs outputs ad fee root) (window : valid_until.val < 2 ^ 20)
    (fresh : ∀ i ∈ inputs, i.ro.asset_def.policy.cred_pk ≠ 0 → ∀ c, i.cred = some c →
      c.expiry.val < valid_until.val + 2 ^ 20)
    (under : moved inputs ≤ ad.policy.reveal_threshold.val)
    (close : ad.policy.reveal_threshold.val - moved inputs < 2 ^ 127) (b : Build) (rng : TransferRand)
    (extra : List Byte) :
    ∃ n sk, TransferNote.generate b rng inputs outputs pk valid_until extra = .ok (n, sk) ∧
      n.viewing_memo = emptyMemo rng.enc_rand inputs.length outputs.length := by
  obtain ⟨n, sk, w, pub, h, -⟩ := wf.generates ⟨window, fresh, Or.inr (Or.inl ⟨under, close⟩)⟩ complete keys b rng extra
  have gen := TransferNote.generate_ok.2 ⟨w, pub, h⟩
  refine ⟨n, sk, gen, C16_empty gen (fun ad' hm => Or.inr ?_)⟩
  rw [wf.assets.moves hm]
  exact under

/-- **Far below the threshold** the transfer is not generated, unless the empty memo happens to decrypt to the message
that the circuit would have asked for above the threshold. -/
theorem C16_false {b : Build} {rng : TransferRand} {inputs : List TransferNoteInput}
    {outputs : List RecordOpening} {pk : TransferProvingKey} {valid_until : U64} {extra : List Byte}
    {n : TransferNote} {sk : Fr} (gen : TransferNote.generate b rng inputs outputs pk valid_until extra = .ok (n, sk))
    {ad : AssetDefinition} (moves : Moves ad inputs) {k : ViewerKeyPair} (viewer : ad.policy.viewer_pk = k.pubKey)
    (named : k.pubKey ≠ 0) (far : moved inputs + 2 ^ 127 ≤ ad.policy.reveal_threshold.val) :
    ∃ w, TransferWitness.newUnchecked rng.enc_rand inputs outputs = .ok w ∧
      k.decrypt (emptyMemo rng.enc_rand inputs.length outputs.length) = transferMsgV w.toV := by
  obtain ⟨w, pub, h⟩ := TransferNote.generate_ok.1 gen
  obtain ⟨ad', ha, hwa, hlt, -⟩ := h.memo_eq
  obtain rfl : ad = ad' := ha.moves moves
  obtain ⟨h1, h2, h3, h4⟩ := newUnchecked_ok.1 h.witness
  refine ⟨w, h.witness, ?_⟩
  rw [← C16_empty gen (fun ad'' hm => Or.inr (by rw [ha.moves hm]; omega))]
  have hul : ¬ underLimit w.toV = true := by
    have := ad.policy.reveal_threshold.isLt
    rw [underLimit_iff (t := ad.policy.reveal_threshold.val) (s := moved inputs) (by omega) (by omega)
      (by simp only [TransferWitness.toV, hwa]; rfl) h.sumTail_moved]
    omega
  rcases h.sat.memo with (hm' | hm') | hm'
  · exact absurd hm' hul
  · have : ad.policy.toV.isDummyViewingPk = true := by
      simpa only [TransferWitness.toV, hwa] using hm'
    exact absurd ((isDummyViewingPk_host _).1 this) (by rw [viewer]; exact named)
  · have hc : n.viewing_memo.toV = MemoV.derive w.toV.policy.viewer_pk (transferMsgV w.toV) w.toV.enc_rand := by
      rw [h.memo]
      exact of_decide_eq_true hm'
    refine decrypt_derive k (rand := w.toV.enc_rand) ?_
    rw [hc]
    congr 1
    simp only [TransferWitness.toV, hwa]
    show E.xy ad.policy.viewer_pk = _
    rw [viewer]

/-- **Refused.**  So of two such transfers of different assets with the same viewer and the same randomness, at least
one is refused, in every environment. -/
theorem C16_refused {b b' : Build} {rng rng' : TransferRand} {inputs inputs' : List TransferNoteInput}
    {outputs outputs' : List RecordOpening} {pk pk' : TransferProvingKey} {t t' : U64} {extra extra' : List Byte}
    {ad ad' : AssetDefinition} (moves : Moves ad inputs) (moves' : Moves ad' inputs') {k : ViewerKeyPair}
    (viewer : ad.policy.viewer_pk = k.pubKey) (viewer' : ad'.policy.viewer_pk = k.pubKey) (named : k.pubKey ≠ 0)
    (far : moved inputs + 2 ^ 127 ≤ ad.policy.reveal_threshold.val)
    (far' : moved inputs' + 2 ^ 127 ≤ ad'.policy.reveal_threshold.val)
    (ins : inputs.length = inputs'.length) (outs : outputs.length = outputs'.length)
    (rand : rng.enc_rand = rng'.enc_rand) (codes : ad.code ≠ ad'.code) :
    (∀ res, TransferNote.generate b rng inputs outputs pk t extra ≠ .ok res) ∨
    (∀ res, TransferNote.generate b' rng' inputs' outputs' pk' t' extra' ≠ .ok res) := by
  by_contra hcon
  simp only [ne_eq, not_or, not_forall, not_not] at hcon
  obtain ⟨⟨⟨n, sk⟩, gen⟩, ⟨⟨n', sk'⟩, gen'⟩⟩ := hcon
  obtain ⟨w, hw, h1⟩ := C16_false gen moves viewer named far
  obtain ⟨w', hw', h2⟩ := C16_false gen' moves' viewer' named far'
  rw [← ins, ← outs, ← rand, h1] at h2
  have key : ∀ {b : Build} {rng : TransferRand} {inputs : List TransferNoteInput} {outputs : List RecordOpening}
      {pk : TransferProvingKey} {t : U64} {extra : List Byte} {n : TransferNote} {sk : Fr} {w : TransferWitness}
      {ad : AssetDefinition}, TransferNote.generate b rng inputs outputs pk t extra = .ok (n, sk) → Moves ad inputs →
      TransferWitness.newUnchecked rng.enc_rand inputs outputs = .ok w → ∃ l, transferMsgV w.toV = ad.code :: l := by
    intro b rng inputs outputs pk t extra n sk w ad gen hm hw
    obtain ⟨_, _, h⟩ := TransferNote.generate_ok.1 gen
    obtain ⟨ad', ha⟩ := transferCheckAssetDef_ok.1 h.asset
    have hwa := (newUnchecked_ok.1 hw).1.trans (witnessAssetDef_eq ha.toAssetsAgree)
    refine ⟨w.toV.inputs.tail.flatMap (inputMsgV w.toV.policy.reveal_map) ++
        w.toV.outputs.tail.flatMap (outputMsgV w.toV.policy.reveal_map), ?_⟩
    unfold transferMsgV
    rw [ha.moves hm, ← hwa]
    rfl
  obtain ⟨l, hl⟩ := key gen moves hw
  obtain ⟨l', hl'⟩ := key gen' moves' hw'
  rw [hl, hl'] at h2
  exact codes (List.cons.inj h2).1

end Cap

namespace Cap.Examples
open Toy Spec

/-- the example asset with another threshold and no credentials -/
def farAsset (t : Amount) : AssetDefinition :=
  { asset with policy := { asset.policy with reveal_threshold := t, cred_pk := 0 } }
/-- Alice's record of it -/
def farRec (t : Amount) : RecordOpening := { assetRec with asset_def := farAsset t }
/-- root of a tree with the fee record and this record -/
def farRoot (t : Amount) : ZMod p := E.nodeHash (E.leafHash 0 feeRec.commitment) (E.leafHash 1 (farRec t).commitment) 0
/-- inputs: fee record and this record -/
def farInputs (t : Amount) : List TransferNoteInput :=
  [⟨feeRec, ⟨[⟨E.leafHash 1 (farRec t).commitment, 0, .left⟩], farRoot t, 0⟩, alice, none⟩,
   ⟨farRec t, ⟨[⟨E.leafHash 0 feeRec.commitment, 0, .middle⟩], farRoot t, 1⟩, alice, none⟩]
/-- outputs: fee change and everything to Bob -/
def farOutputs (t : Amount) : List RecordOpening := [chgRec, { outBob with asset_def := farAsset t, amount := 50 }]

/-- a threshold less than 2^127 above the 50 units moved -/
def nearT : Amount := ⟨2 ^ 127 + 49, by norm_num⟩
/-- one more is too much -/
def farT : Amount := ⟨2 ^ 127 + 50, by norm_num⟩

/-- with the first threshold the transfer is generated, with the second it is refused by the prover -/
example : isOk (TransferNote.generate .release rng (farInputs nearT) (farOutputs nearT) natPk 900 []) = true ∧
    (TransferNote.generate .release rng (farInputs farT) (farOutputs farT) natPk 900 [] matches .error .failedSnark) := by
  decide +kernel

/-- the two thresholds on both sides of the limit; the hypotheses of `C16_false` about the second -/
example : moved (farInputs nearT) ≤ nearT.val ∧ nearT.val - moved (farInputs nearT) < 2 ^ 127 ∧
    moved (farInputs farT) + 2 ^ 127 ≤ (farAsset farT).policy.reveal_threshold.val ∧
    (farAsset farT).policy.viewer_pk = viewer.pubKey ∧ viewer.pubKey ≠ 0 ∧ Moves (farAsset farT) (farInputs farT) :=
  ⟨by decide +kernel, by decide +kernel, by decide +kernel, by decide +kernel, by decide +kernel,
   ⟨by decide +kernel, (farInputs farT)[1], by simp [farInputs], rfl⟩⟩

/-- a well-formed transfer below the threshold, for `C16_generated_partial` -/
theorem near_wellFormed :
    WellFormed 2 2 1 900 (farInputs nearT) (farOutputs nearT) (farAsset nearT) 7 (farRoot nearT) where
  num_in := rfl
  num_out := rfl
  depth := by decide +kernel
  fee_in := ⟨_, _, rfl, rfl⟩
  fee_out := ⟨_, _, rfl, rfl⟩
  asset_in := by decide +kernel
  asset_out := by decide +kernel
  only_dummies := fun h => absurd (h (farInputs nearT)[1] (by simp [farInputs])) (by decide +kernel)
  code_dummy := by decide +kernel
  code_native := by decide +kernel
  freezer_has_viewer := by decide +kernel
  owned := by decide +kernel
  unfrozen_in := by decide +kernel
  unfrozen_out := by decide +kernel
  member := by decide +kernel
  dummies := by decide +kernel
  once := by decide +kernel
  balanced := by
    refine checkBalance_small (b := .release) (fun c => ?_) (fun c => ?_) (by decide +kernel)
    · exact lt_of_le_of_lt (totalOf_le_total _ _) (by decide +kernel)
    · exact lt_of_le_of_lt (totalOf_le_total _ _) (by decide +kernel)
  small := by decide +kernel
  creds := by
    have h : ∀ i ∈ farInputs nearT, i.ro.asset_def.policy.cred_pk = 0 := by decide +kernel
    exact fun i hi hc => absurd (h i hi) hc

end Cap.Examples
