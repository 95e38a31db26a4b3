/-
C02: an accepted transfer never turns one asset type into another.

status: partial
note: FALSE of the code: the transfer circuit never compares the asset code of a spent record with the code of the transfer, only the policies. C02_false: for every instantiation, any unfrozen record of an asset without viewer can be turned into a record of any other code (also native) in an accepted note. C02_partial, C02_records_partial: what the circuit does guarantee (equal policies, fee records native, one code for all created records). C02_generated: notes made by TransferNote::generate have equal asset definitions.
-/
import Verif.Lemmas.Forge
import Verif.Lemmas.Opened

namespace Cap

open Spec

variable [E : CapEnv] [S : CapExt]

/-- **Negation.**  Take any native fee record and any unfrozen record `ro` (not a dummy, policy without viewer), any
asset code and any new owner.  Whoever knows the two owners' keys can make a note that `verify` accepts, that spends
`ro` and creates `out`, which has the same amount and policy and that other asset code. -/
theorem C02_false (complete : SnarkComplete) {d : Fin 256} (hd : d.val ≠ 0)
    {pk : TransferProvingKey} {vk : TransferVerifyingKey} (keys : transferPreprocess 2 2 d = .ok (pk, vk))
    {fee_ro ro : RecordOpening} {k0 k1 : UserKeyPair}
    (fee_asset : fee_ro.asset_def = AssetDefinition.native) (fee_unfrozen : fee_ro.freeze_flag = .unfrozen)
    (fee_owner : fee_ro.pub_key.address = k0.address) (fee_small : fee_ro.amount.val < 2 ^ 127)
    (ro_unfrozen : ro.freeze_flag = .unfrozen) (ro_owner : ro.pub_key.address = k1.address)
    (ro_code : ro.asset_def.code ≠ dummyCode) (ro_viewer : ro.asset_def.policy.viewer_pk = 0)
    (ro_small : ro.amount.val < 2 ^ 127) (code : AssetCode) (owner : UserPubKey) (blind : F) :
    ∃ n w, OpensTransfer 2 2 d.val n w ∧ (∀ t, n.verify vk n.aux_info.merkle_root t = .ok ()) ∧
      w.inputs.map (·.ro) = [fee_ro.toV, ro.toV] ∧
      w.outputs = [fee_ro.toV, (RecordOpening.mk ro.amount ⟨code, ro.asset_def.policy⟩ owner .unfrozen blind).toV] := by
  obtain ⟨n, w, h1, h2, h3, h4, -⟩ := hosts_accepted complete hd keys (fee_ro := fee_ro) (ro := ro) (chg := fee_ro)
    (out := ⟨ro.amount, ⟨code, ro.asset_def.policy⟩, owner, .unfrozen, blind⟩) fee_asset fee_unfrozen fee_owner
    ro_unfrozen ro_owner ro_code ro_viewer fee_asset fee_unfrozen rfl fee_small rfl rfl rfl ro_small
  exact ⟨n, w, h1, h2, h3, h4⟩

/-- **What holds of accepted notes.**  The fee input and the fee change are native; all other created records have one
asset code; every other spent record that is not a dummy has the policy of the created ones. -/
theorem C02_partial {a b d : ℕ} {n : TransferNote} {w : TransferWit} (h : OpensTransfer a b d n w) :
    ∃ i0 is o0 os, w.inputs = i0 :: is ∧ w.outputs = o0 :: os ∧
      i0.ro.asset_code = nativeCode ∧ o0.asset_code = nativeCode ∧
      i0.ro.policy = AssetPolicy.default.toV ∧ o0.policy = AssetPolicy.default.toV ∧
      (∀ o ∈ os, ∀ o' ∈ os, o.asset_code = o'.asset_code ∧ o.policy = o'.policy) ∧
      ∀ i ∈ is, i.ro.asset_code ≠ dummyCode → ∀ o ∈ os, i.ro.policy = o.policy := by
  obtain ⟨i0, is, o0, os, nl, nls, c, cs, hp⟩ := h.sat.parts h.shape
  obtain ⟨m1, m2, m3, m4⟩ := hp.map_in h.sat
  have code : ∀ o ∈ os, o.asset_code = w.asset_code := by
    intro o ho
    obtain ⟨x, -, hx⟩ := hp.mem_out ho
    have := hx.2.1
    simp only [Bool.false_eq_true, if_false] at this
    exact this.1
  refine ⟨i0, is, o0, os, hp.inputs, hp.outputs, ?_, ?_, m1, m2, ?_, ?_⟩
  · have := hp.in0.2.2.1
    simp only [InputPosOk, if_true] at this
    exact this.1
  · have := hp.out0.2.1
    simp only [if_true] at this
    exact this.1
  · intro o ho o' ho'
    exact ⟨(code o ho).trans (code o' ho').symm, (m4 o ho).trans (m4 o' ho').symm⟩
  · intro i hi hd o ho
    rw [m4 o ho]
    exact m3 i hi (by simp [RecordV.isDummy, hd])

/-- **Records.**  A host record that is spent by an accepted note at a non-fee position and is not a dummy has the
policy of every host record created at a non-fee position: an asset can only be turned into one with the same viewer,
credential issuer, freezer, reveal map and threshold. -/
theorem C02_records_partial {a b d : ℕ} {n : TransferNote} {w : TransferWit} (h : OpensTransfer a b d n w)
    {ro out : RecordOpening} {i : InputV} {o : RecordV} (hi : i ∈ w.inputs.tail) (ho : o ∈ w.outputs.tail)
    (hr : Reads ro i.ro) (hq : Reads out o) (hd : ro.asset_def.code ≠ dummyCode) :
    ro.asset_def.policy = out.asset_def.policy := by
  obtain ⟨i0, is, o0, os, nl, nls, c, cs, hp⟩ := h.sat.parts h.shape
  obtain ⟨-, -, m3, m4⟩ := hp.map_in h.sat
  rw [hp.inputs, List.tail_cons] at hi
  rw [hp.outputs, List.tail_cons] at ho
  have hcode := (reads_iff.1 hr).2.1
  have e1 := m3 i hi (by simp only [RecordV.isDummy, ← hcode]; simp [hd])
  have e2 := m4 o ho
  have hm : w.policy.reveal_map.val < 2 ^ 12 := h.sat.map_range
  have f1 := reads_small hr (by rw [e1]; exact hm)
  have f2 := reads_small hq (by rw [e2]; exact hm)
  apply AssetPolicy.toV_inj
  have g1 : i.ro.policy = ro.asset_def.policy.toV := by rw [f1]; rfl
  have g2 : o.policy = out.asset_def.policy.toV := by rw [f2]; rfl
  rw [← g1, ← g2, e1, e2]

/-- **Generated notes.**  `TransferNote::generate` only succeeds if every non-fee input that is not a dummy has the
asset definition of every non-fee output. -/
theorem C02_generated {b : Build} {rng : TransferRand} {inputs : List TransferNoteInput}
    {outputs : List RecordOpening} {pk : TransferProvingKey} {valid_until : U64} {extra : List Byte}
    {n : TransferNote} {sk : Fr} (gen : TransferNote.generate b rng inputs outputs pk valid_until extra = .ok (n, sk)) :
    ∃ i0 is o0 os, inputs = i0 :: is ∧ outputs = o0 :: os ∧
      i0.ro.asset_def = AssetDefinition.native ∧ o0.asset_def = AssetDefinition.native ∧
      ∀ i ∈ is, i.ro.asset_def ≠ AssetDefinition.dummy → ∀ o ∈ os, i.ro.asset_def = o.asset_def := by
  obtain ⟨w, pub, h⟩ := TransferNote.generate_ok.1 gen
  have ha := h.asset
  obtain ⟨i0, is, rfl⟩ := List.exists_cons_of_ne_nil h.inputs_ne
  obtain ⟨o0, os, rfl⟩ := List.exists_cons_of_ne_nil h.outputs_ne
  simp only [List.map_cons, transferCheckAssetDef, bind_ok_iff, ensure_ok_iff, Bool.not_eq_true',
    List.any_eq_false, decide_eq_true_eq, List.mem_map, ne_eq] at ha
  obtain ⟨_, h1, _, h2, _, h3, _, h4, -⟩ := ha
  refine ⟨i0, is, o0, os, rfl, rfl, h1, h2, ?_⟩
  intro i hi hd o ho
  have e1 := h3 i.ro ⟨i, hi, rfl⟩
  have e2 := h4 o ho
  simp only [hd, not_false_eq_true, true_and, Classical.not_not] at e1 e2
  rw [e1, e2]

end Cap

namespace Cap.Examples
open Toy Spec

/-- `C02_false` has instances: 50 units of a made-up asset become 50 native units -/
example : ∃ (fee_ro ro : RecordOpening), fee_ro.asset_def = AssetDefinition.native ∧ fee_ro.freeze_flag = .unfrozen ∧
    fee_ro.pub_key.address = alice.address ∧ fee_ro.amount.val < 2 ^ 127 ∧ ro.freeze_flag = .unfrozen ∧
    ro.pub_key.address = alice.address ∧ ro.asset_def.code = 77 ∧ (77 : F) ≠ dummyCode ∧ (77 : F) ≠ nativeCode ∧
    ro.asset_def.policy = AssetDefinition.native.policy ∧ ro.asset_def.policy.viewer_pk = 0 ∧ ro.amount = 50 :=
  ⟨feeRec, ⟨50, ⟨77, AssetPolicy.default⟩, alice.pubKey, .unfrozen, 5⟩, rfl, rfl, rfl, by decide +kernel, rfl, rfl, rfl,
    by decide +kernel, by decide +kernel, rfl, rfl, rfl⟩

/-- `C02_partial` and `C02_records_partial` on the example transfer -/
example : ∃ (w : TransferWit) (i : InputV) (o : RecordV), OpensTransfer 3 3 1 xfrNote w ∧ i ∈ w.inputs.tail ∧
    o ∈ w.outputs.tail ∧ Reads assetRec i.ro ∧ Reads outBob o ∧ assetRec.asset_def.code ≠ dummyCode := by
  obtain ⟨w, h, h1, h2, -⟩ := xfr_opens
  have hin : assetRec.toV ∈ (w.toV.inputs.tail).map (·.ro) := by
    rw [List.map_tail, h1]
    simp
  obtain ⟨i, hi, he⟩ := List.mem_map.1 hin
  refine ⟨w.toV, i, outBob.toV, h, hi, ?_, by rw [he]; exact Reads.toV _, Reads.toV _, by decide +kernel⟩
  rw [h2]
  simp [xfrOutputs]

/-- `C02_generated` on the example transfer -/
example : ∃ i0 is o0 os, xfrInputs = i0 :: is ∧ xfrOutputs = o0 :: os ∧
      i0.ro.asset_def = AssetDefinition.native ∧ o0.asset_def = AssetDefinition.native ∧
      ∀ i ∈ is, i.ro.asset_def ≠ AssetDefinition.dummy → ∀ o ∈ os, i.ro.asset_def = o.asset_def :=
  C02_generated xfrNote_eq

end Cap.Examples
