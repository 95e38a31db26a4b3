/-
C13: the policy's viewer always sees what the policy reveals.

status: partial
note: C13_partial (assignments and host records) and C13_accepted (from verify, under SnarkSound): for an amount over the threshold the policy's viewer opens the memo and gets, for every input that is not a dummy and every output (after the fee input and change), exactly the fields selected by the map; attributes are those of the credential in the prover's assignment. Conditions: owners are points (host records), no spent record is owned by the neutral element when addresses are revealed, the two address bits of the map agree, fewer than 2^64 inputs and outputs. The property as stated is false, for every environment and depth: C13_false (an extra output of amount 0 owned by coordinates off the curve makes the whole memo unreadable), C13_dropped (a spent record of the neutral address is left out), C13_odd_map (maps whose address bits differ).
-/
import Verif.Lemmas.ForgeViewed
import Verif.Lemmas.Opened
import Verif.Props.C17

namespace Cap

open Spec

variable [E : CapEnv] [S : CapExt]

/-- **Assignments.**  If an output reads as a host record of the asset, the amount of the other inputs is above the
threshold and the policy names a viewer, then the viewer decrypts the message of the circuit. -/
theorem C13_decrypts {a c d : ℕ} {n : TransferNote} {w : TransferWit} (h : OpensTransfer a c d n w) (ha : a < 2 ^ 64)
    {ad : AssetDefinition} (code : w.asset_code = ad.code) (policy : w.policy = ad.policy.toV)
    {ins : List RecordOpening}
    (hin : List.Forall₂ Reads ins ((w.inputs.tail.filter (fun i => !i.ro.isDummy)).map (·.ro)))
    (over : ad.policy.reveal_threshold.val < total ins)
    {k : ViewerKeyPair} (viewer : k.pubKey = ad.policy.viewer_pk) (named : ad.policy.viewer_pk ≠ 0) :
    k.decrypt n.viewing_memo = ad.code :: (w.inputs.tail.flatMap (inputMsgV ad.policy.reveal_map.toScalar) ++
      w.outputs.tail.flatMap (outputMsgV ad.policy.reveal_map.toScalar)) := by
  obtain ⟨i0, is, o0, os, nl, nls, cm, cs, hp⟩ := h.sat.parts h.shape
  have hz : ∀ i ∈ is, i.ro.isDummy = false ∨ i.ro.amount = 0 := by
    intro i hi
    obtain ⟨x, -, hx⟩ := hp.mem_in hi
    exact hx.2.1
  rw [hp.inputs, List.tail_cons] at hin
  have hsum : natSum (is.map (·.ro.amount)) = total ins := (natSum_real hz).trans (reads_total hin)
  have hlen : ins.length ≤ a := by
    rw [hin.length_eq, List.length_map, ← h.shape.inputs_len, hp.inputs, List.length_cons]
    exact le_trans (List.length_filter_le _ _) (Nat.le_succ _)
  have hs : total ins < 2 ^ 200 := by
    have h1 := total_lt ins
    have h2 : ins.length * 2 ^ 128 ≤ 2 ^ 64 * 2 ^ 128 := Nat.mul_le_mul_right _ (by omega)
    have h3 : (2 : ℕ) ^ 64 * 2 ^ 128 < 2 ^ 200 := by norm_num
    omega
  have ht := ad.policy.reveal_threshold.isLt
  have hul : ¬ underLimit w = true := by
    rw [underLimit_iff (t := ad.policy.reveal_threshold.val) (s := total ins)
      (lt_trans ht (by norm_num)) hs (by rw [policy]; rfl)
      (by rw [hp.inputs, sumTail, List.map_cons, List.tail_cons, ← hsum, natSum_cast])]
    omega
  rcases h.sat.memo with (hm | hm) | hm
  · exact absurd hm hul
  · rw [policy] at hm
    exact absurd ((isDummyViewingPk_host _).1 hm) named
  · have hm' : n.pub.toV.memo = MemoV.derive w.policy.viewer_pk (transferMsgV w) w.enc_rand := of_decide_eq_true hm
    rw [policy, AssetPolicy.toV, ← viewer] at hm'
    have : k.decrypt n.viewing_memo = _ := decrypt_derive k hm'
    rw [this, transferMsgV, policy, code]
    rfl

/-- **Records.**  `ins` are the openings of the inputs after the first that are not dummies, `outs` those of the
outputs after the first, all of whose owners are points; `ad` is the asset of an output.  If the policy names a viewer
and the transferred amount is above the threshold, the viewer opens the memo and gets, for each of these records,
exactly the fields the map selects.

The two address bits of the map agree (the library's functions always set both), and no spent record is owned by the
neutral element if the map reveals addresses. -/
theorem C13_partial (b : Build) {a c d : ℕ} {n : TransferNote} {w : TransferWit} (h : OpensTransfer a c d n w)
    (ha : a < 2 ^ 64) (hc : c < 2 ^ 64) {ad : AssetDefinition} {ins outs : List RecordOpening}
    (hin : List.Forall₂ Reads ins ((w.inputs.tail.filter (fun i => !i.ro.isDummy)).map (·.ro)))
    (hout : List.Forall₂ Reads outs w.outputs.tail) (asset : ∃ o ∈ outs, o.asset_def = ad)
    (agree : ad.policy.reveal_map[0] = ad.policy.reveal_map[1])
    (owned : ad.policy.reveal_map[0] = true → ∀ r ∈ ins, r.pub_key.address ≠ 0)
    (over : ad.policy.reveal_threshold.val < total ins)
    {k : ViewerKeyPair} (viewer : k.pubKey = ad.policy.viewer_pk) (named : ad.policy.viewer_pk ≠ 0) :
    k.openTransferViewingMemo b ad n = .ok
      (List.zipWith (viewInput ad) ins ((w.inputs.tail.filter (fun i => !i.ro.isDummy)).map (·.cred.attrs)),
        outs.map (viewOutput ad)) := by
  obtain ⟨i0, is, o0, os, nl, nls, cm, cs, hp⟩ := h.sat.parts h.shape
  have hpol := (hp.map_in h.sat).2.2.2
  obtain ⟨o, ho, rfl⟩ := asset
  obtain ⟨v, hv, hr⟩ : ∃ v ∈ w.outputs.tail, Reads o v := by
    obtain ⟨v, hv, hr⟩ := forall₂_mem_right (List.Forall₂.flip (R := fun a b => Reads b a) hout) o ho
    exact ⟨v, hv, hr⟩
  rw [hp.outputs, List.tail_cons] at hv
  have e := reads_small hr (by rw [hpol v hv]; exact h.sat.map_range)
  have policy : w.policy = o.asset_def.policy.toV := by rw [← hpol v hv, e]; rfl
  have code : w.asset_code = o.asset_def.code := by
    obtain ⟨x, -, hx⟩ := hp.mem_out hv
    have := hx.2.1
    simp only [Bool.false_eq_true, if_false] at this
    rw [← this.1, e]
    rfl
  have hdec := C13_decrypts h ha code policy hin over viewer named
  have hl1 : n.inputs_nullifiers.length = is.length + 1 := by
    have h1 := h.shape.inputs_len
    rw [hp.inputs] at h1
    exact h.shape.nullifiers_len.trans h1.symm
  have hl2 : n.output_commitments.length = os.length + 1 := by
    have h1 := h.shape.outputs_len
    rw [hp.outputs] at h1
    exact h.shape.commitments_len.trans h1.symm
  have hattrs : ∀ i ∈ is, i.cred.attrs.length = 8 ∧ (i.ro.isDummy = false ∨ i.ro.amount = 0) := by
    intro i hi
    obtain ⟨x, -, hx⟩ := hp.mem_in hi
    exact ⟨hx.2.2.2.2.2.2.1, hx.2.1⟩
  have hle1 : is.length + 1 < 2 ^ 64 := by
    rw [← hl1]; exact lt_of_eq_of_lt h.shape.nullifiers_len ha
  have hle2 : os.length + 1 < 2 ^ 64 := by
    rw [← hl2]; exact lt_of_eq_of_lt h.shape.commitments_len hc
  rw [hp.inputs, List.tail_cons] at hin hdec ⊢
  rw [hp.outputs, List.tail_cons] at hout hdec
  have hoi := openInputs_seen o.asset_def hattrs hin owned
    (os.flatMap (outputMsgV o.asset_def.policy.reveal_map.toScalar))
  have hoo := openOutputs_seen o.asset_def agree hout
  unfold ViewerKeyPair.openTransferViewingMemo
  rw [if_neg (by simp [viewer]), hl1, hl2, hdec]
  simp only [usizePred, bind, Except.bind]
  rw [if_neg]
  · simp only [ne_eq, not_true_eq_false, if_false, hoi, hoo]
  · have f1 : (is.flatMap (inputMsgV o.asset_def.policy.reveal_map.toScalar)).length = is.length * 12 := by
      apply flatMap_length_const
      intro i hi
      exact inputMsgV_length (hattrs i hi).1
    have f2 : (os.flatMap (outputMsgV o.asset_def.policy.reveal_map.toScalar)).length = os.length * 4 := by
      apply flatMap_length_const
      intro i hi
      exact outputMsgV_length _ _
    rw [List.length_cons, List.length_append, f1, f2, memoExpectedLen, if_neg (by omega)]
    simp only [VIEWABLE_DATA_LEN, REVEAL_MAP_LEN, ATTRS_LEN]
    omega

/-- **End to end.**  Of an accepted transfer there is an assignment such that: whatever openings the published
commitments have, and if the real inputs of the assignment are host records, the viewer sees what the map selects; or the
commitment function collides on two named inputs. -/
theorem C13_accepted (sound : SnarkSound) (b : Build) {a c : ℕ} {d : Fin 256} {pk : TransferProvingKey}
    {vk : TransferVerifyingKey} (keys : transferPreprocess a c d = .ok (pk, vk)) (ha : a < 2 ^ 64) (hc : c < 2 ^ 64)
    {n : TransferNote} {root : F} {t : U64} (ok : n.verify vk root t = .ok ())
    (hn : n.inputs_nullifiers.length = a) (hm : n.output_commitments.length = c) :
    ∃ w, OpensTransfer a c d.val n w ∧
      ∀ (ad : AssetDefinition) (ins outs : List RecordOpening) (k : ViewerKeyPair),
        List.Forall₂ Reads ins ((w.inputs.tail.filter (fun i => !i.ro.isDummy)).map (·.ro)) →
        outs.map (·.commitment) = n.output_commitments.tail → (∃ o ∈ outs, o.asset_def = ad) →
        ad.policy.reveal_map[0] = ad.policy.reveal_map[1] →
        (ad.policy.reveal_map[0] = true → ∀ r ∈ ins, r.pub_key.address ≠ 0) →
        ad.policy.reveal_threshold.val < total ins → k.pubKey = ad.policy.viewer_pk → ad.policy.viewer_pk ≠ 0 →
        k.openTransferViewingMemo b ad n = .ok
          (List.zipWith (viewInput ad) ins ((w.inputs.tail.filter (fun i => !i.ro.isDummy)).map (·.cred.attrs)),
            outs.map (viewOutput ad)) ∨
        ∃ x ∈ outs.zip w.outputs.tail, Collides commitOf (x.1.scalars, x.1.blind) (x.2.scalars, x.2.blind) := by
  obtain ⟨w, hw⟩ := transfer_opened sound keys ok hn hm
  refine ⟨w, hw, ?_⟩
  intro ad ins outs k hin hout asset agree owned over viewer named
  obtain ⟨i0, is, o0, os, nl, nls, cm, cs, hp⟩ := hw.sat.parts hw.shape
  have hcs : n.output_commitments = cm :: cs := hp.commitments
  have houts : List.Forall₂ (fun (o : RecordV) x => o.commitment = x) os cs :=
    hp.outs.imp (fun _ _ h => h.2.2.1)
  rw [hcs, List.tail_cons] at hout
  have key : ∀ {outs : List RecordOpening} {os : List RecordV} {cs : List F}, outs.map (·.commitment) = cs →
      List.Forall₂ (fun (o : RecordV) x => o.commitment = x) os cs → List.Forall₂ Reads outs os ∨
        ∃ x ∈ outs.zip os, Collides commitOf (x.1.scalars, x.1.blind) (x.2.scalars, x.2.blind) := by
    intro outs os cs h1 h2
    induction h2 generalizing outs with
    | nil => rw [List.map_eq_nil_iff] at h1; subst h1; exact Or.inl .nil
    | @cons o x os cs ho _ ih =>
      obtain ⟨r, rs, rfl, hr, hrs⟩ := List.map_eq_cons_iff.1 h1
      rcases reads_or_collides (hr.trans ho.symm) with hR | hC
      · rcases ih hrs with hR' | ⟨y, hy, hC⟩
        · exact Or.inl (.cons hR hR')
        · exact Or.inr ⟨y, by rw [List.zip_cons_cons]; exact List.mem_cons_of_mem _ hy, hC⟩
      · exact Or.inr ⟨(r, o), by simp, hC⟩
  rcases key hout houts with hR | hC
  · left
    refine C13_partial b hw ha hc hin ?_ asset agree owned over viewer named
    rw [hp.outputs]
    exact hR
  · right
    rw [hp.outputs]
    exact hC

/-! ### What the circuit does not check -/

/-- the note behind the next theorem -/
theorem offCurve_hides (complete : SnarkComplete) {d : Fin 256} {e : ℕ} (he : d.val = e + 1)
    {pk : TransferProvingKey} {vk : TransferVerifyingKey} (keys : transferPreprocess 2 3 d = .ok (pk, vk))
    {fee_ro ro chg out : RecordOpening} {k0 k1 : UserKeyPair}
    (fee_asset : fee_ro.asset_def = AssetDefinition.native) (fee_unfrozen : fee_ro.freeze_flag = .unfrozen)
    (fee_owner : fee_ro.pub_key.address = k0.address) (ro_unfrozen : ro.freeze_flag = .unfrozen)
    (ro_owner : ro.pub_key.address = k1.address) (ro_code : ro.asset_def.code ≠ dummyCode)
    (chg_asset : chg.asset_def = AssetDefinition.native) (chg_unfrozen : chg.freeze_flag = .unfrozen)
    (chg_amount : chg.amount = fee_ro.amount) (chg_small : chg.amount.val < 2 ^ 127)
    (out_asset : out.asset_def = ro.asset_def) (out_unfrozen : out.freeze_flag = .unfrozen)
    (out_amount : out.amount = ro.amount) (out_small : out.amount.val < 2 ^ 127)
    (owned : ro.pub_key.address ≠ 0) (reveals : ro.asset_def.policy.reveal_map[0] = true)
    (agree : ro.asset_def.policy.reveal_map[0] = ro.asset_def.policy.reveal_map[1])
    {k : ViewerKeyPair} (viewer : k.pubKey = ro.asset_def.policy.viewer_pk) (blind : F) :
    ∃ π, OpensTransfer 2 3 d.val (viewedNote fee_ro ro chg k0 k1 [out.toV, offCurve 0 ro.asset_def blind] e π)
        (viewedWit fee_ro ro chg k0 k1 [out.toV, offCurve 0 ro.asset_def blind] e) ∧
      (∀ t, (viewedNote fee_ro ro chg k0 k1 [out.toV, offCurve 0 ro.asset_def blind] e π).verify vk
        (viewedNote fee_ro ro chg k0 k1 [out.toV, offCurve 0 ro.asset_def blind] e π).aux_info.merkle_root t = .ok ()) ∧
      ∀ b, k.openTransferViewingMemo b ro.asset_def
        (viewedNote fee_ro ro chg k0 k1 [out.toV, offCurve 0 ro.asset_def blind] e π) =
          .error .failedViewableMemoDecryption := by
  obtain ⟨π, ho, hv⟩ := viewed_accepted complete he (os := [out.toV, offCurve 0 ro.asset_def blind]) (chg := chg)
    keys fee_asset fee_unfrozen fee_owner ro_unfrozen ro_owner ro_code chg_asset chg_unfrozen chg_amount chg_small
    (by
      intro o ho
      simp only [List.mem_cons, List.not_mem_nil, or_false] at ho
      rcases ho with rfl | rfl
      · refine ⟨FreezeFlag.toBool_eq_false.2 out_unfrozen, congrArg (·.code) out_asset,
          congrArg (fun x : AssetDefinition => x.policy.toV) out_asset, ?_⟩
        show (Amount.toF out.amount).val < 2 ^ 127
        rw [Amount.toF_val]; exact out_small
      · refine ⟨rfl, rfl, rfl, ?_⟩
        show (Amount.toF 0).val < 2 ^ 127
        rw [Amount.toF_val]; norm_num)
    (by simp [offCurve, Amount.toF_zero, RecordOpening.toV, out_amount])
  refine ⟨π, ho, hv, fun b => ?_⟩
  rw [viewed_open b (by simp) viewer]
  rw [viewed_inputs ro_code (fun _ => owned)]
  have h1 : ViewableData.fromXfrDataAndAsset ro.asset_def
      (outputMsgV ro.asset_def.policy.reveal_map.toScalar out.toV) .output = .ok (viewOutput ro.asset_def out) := by
    rw [outputMsgV_host]
    exact fromXfr_output ro.asset_def agree out
  have h2 := fromXfr_offCurve ro.asset_def reveals 0 blind
  have h3 := openOutputs_cons ro.asset_def ro.asset_def.policy.reveal_map.toScalar out.toV
    [offCurve 0 ro.asset_def blind]
  have h4 := openOutputs_cons ro.asset_def ro.asset_def.policy.reveal_map.toScalar (offCurve 0 ro.asset_def blind) []
  rw [h2] at h4
  simp only [List.length_cons, List.length_nil] at h3 h4 ⊢
  rw [h4, h1] at h3
  simp only [bind, Except.bind] at h3 ⊢
  rw [h3]

/-- **Negation 1: one worthless output hides everything.**  The owner of a record of an asset whose policy reveals
addresses to a viewer can send it on in an accepted transfer with an additional output of amount 0 whose owner
coordinates `(0, 0)` are not on the curve.  The circuit is satisfied with a correct memo, but opening the memo fails as
a whole, so that the viewer learns nothing about the real records. -/
theorem C13_false (complete : SnarkComplete) {d : Fin 256} (hd : d.val ≠ 0)
    {pk : TransferProvingKey} {vk : TransferVerifyingKey} (keys : transferPreprocess 2 3 d = .ok (pk, vk))
    {fee_ro ro chg out : RecordOpening} {k0 k1 : UserKeyPair}
    (fee_asset : fee_ro.asset_def = AssetDefinition.native) (fee_unfrozen : fee_ro.freeze_flag = .unfrozen)
    (fee_owner : fee_ro.pub_key.address = k0.address) (ro_unfrozen : ro.freeze_flag = .unfrozen)
    (ro_owner : ro.pub_key.address = k1.address) (ro_code : ro.asset_def.code ≠ dummyCode)
    (chg_asset : chg.asset_def = AssetDefinition.native) (chg_unfrozen : chg.freeze_flag = .unfrozen)
    (chg_amount : chg.amount = fee_ro.amount) (chg_small : chg.amount.val < 2 ^ 127)
    (out_asset : out.asset_def = ro.asset_def) (out_unfrozen : out.freeze_flag = .unfrozen)
    (out_amount : out.amount = ro.amount) (out_small : out.amount.val < 2 ^ 127)
    (owned : ro.pub_key.address ≠ 0) (reveals : ro.asset_def.policy.reveal_map[0] = true)
    (agree : ro.asset_def.policy.reveal_map[0] = ro.asset_def.policy.reveal_map[1])
    {k : ViewerKeyPair} (viewer : k.pubKey = ro.asset_def.policy.viewer_pk) (blind : F) :
    ∃ n w, OpensTransfer 2 3 d.val n w ∧ (∀ t, n.verify vk n.aux_info.merkle_root t = .ok ()) ∧
      w.inputs.map (·.ro) = [fee_ro.toV, ro.toV] ∧ w.outputs = [chg.toV, out.toV, offCurve 0 ro.asset_def blind] ∧
      ∀ b, k.openTransferViewingMemo b ro.asset_def n = .error .failedViewableMemoDecryption := by
  obtain ⟨e, he⟩ : ∃ e, d.val = e + 1 := ⟨d.val - 1, by omega⟩
  obtain ⟨π, h1, h2, h3⟩ := offCurve_hides complete he keys fee_asset fee_unfrozen fee_owner ro_unfrozen ro_owner ro_code
    chg_asset chg_unfrozen chg_amount chg_small out_asset out_unfrozen out_amount out_small owned reveals agree viewer blind
  exact ⟨_, _, h1, h2, rfl, rfl, h3⟩

/-- **Negation 2: records of the neutral address are not shown.**  A record whose owner is the neutral element (its
secret key is 0) can be spent in an accepted transfer of an asset that reveals addresses.  The viewer opens the memo,
but the spent record is missing from the list: it is taken for a dummy. -/
theorem C13_dropped (complete : SnarkComplete) {d : Fin 256} (hd : d.val ≠ 0)
    {pk : TransferProvingKey} {vk : TransferVerifyingKey} (keys : transferPreprocess 2 2 d = .ok (pk, vk))
    {fee_ro ro chg out : RecordOpening} {k0 : UserKeyPair} {enc : E.AeadSk}
    (fee_asset : fee_ro.asset_def = AssetDefinition.native) (fee_unfrozen : fee_ro.freeze_flag = .unfrozen)
    (fee_owner : fee_ro.pub_key.address = k0.address) (ro_unfrozen : ro.freeze_flag = .unfrozen)
    (ro_owner : ro.pub_key.address = 0) (ro_code : ro.asset_def.code ≠ dummyCode)
    (chg_asset : chg.asset_def = AssetDefinition.native) (chg_unfrozen : chg.freeze_flag = .unfrozen)
    (chg_amount : chg.amount = fee_ro.amount) (chg_small : chg.amount.val < 2 ^ 127)
    (out_asset : out.asset_def = ro.asset_def) (out_unfrozen : out.freeze_flag = .unfrozen)
    (out_amount : out.amount = ro.amount) (out_small : out.amount.val < 2 ^ 127)
    (reveals : ro.asset_def.policy.reveal_map[0] = true)
    (agree : ro.asset_def.policy.reveal_map[0] = ro.asset_def.policy.reveal_map[1])
    {k : ViewerKeyPair} (viewer : k.pubKey = ro.asset_def.policy.viewer_pk) :
    ∃ n w, OpensTransfer 2 2 d.val n w ∧ (∀ t, n.verify vk n.aux_info.merkle_root t = .ok ()) ∧
      w.inputs.map (·.ro) = [fee_ro.toV, ro.toV] ∧ w.outputs = [chg.toV, out.toV] ∧
      ∀ b, k.openTransferViewingMemo b ro.asset_def n = .ok ([], [viewOutput ro.asset_def out]) := by
  obtain ⟨e, he⟩ : ∃ e, d.val = e + 1 := ⟨d.val - 1, by omega⟩
  obtain ⟨π, ho, hv⟩ := viewed_accepted complete he (os := [out.toV]) (chg := chg) (k1 := ⟨0, enc⟩)
    keys fee_asset fee_unfrozen fee_owner ro_unfrozen (by simp [ro_owner, UserKeyPair.address, smulFr]) ro_code
    chg_asset chg_unfrozen chg_amount chg_small
    (by
      intro o ho
      simp only [List.mem_cons, List.not_mem_nil, or_false] at ho
      subst ho
      refine ⟨FreezeFlag.toBool_eq_false.2 out_unfrozen, congrArg (·.code) out_asset,
        congrArg (fun x : AssetDefinition => x.policy.toV) out_asset, ?_⟩
      show (Amount.toF out.amount).val < 2 ^ 127
      rw [Amount.toF_val]; exact out_small)
    (by simp [RecordOpening.toV, out_amount])
  refine ⟨_, _, ho, hv, rfl, rfl, fun b => ?_⟩
  rw [viewed_open b (by simp) viewer]
  have hi := viewed_input_neutral (fee_ro := fee_ro) (chg := chg) (k0 := k0) (k1 := ⟨0, enc⟩) (os := [out.toV])
    (e := e) ro_code reveals ro_owner ([out.toV].flatMap (outputMsgV ro.asset_def.policy.reveal_map.toScalar))
  rw [hi]
  have h1 := openOutputs_seen ro.asset_def agree (ros := [out]) (os := [out.toV]) (.cons (Reads.toV out) .nil)
  simp only [bind, Except.bind, h1, List.map_cons, List.map_nil]

/-- **Negation 3: maps whose two address bits differ.**  If the map has bit 0 set and bit 1 clear, the circuit puts the
owner's coordinates `(x, 0)` in the memo; for an output to the neutral address that is `(0, 0)`, and the memo cannot be
opened.  (Only `set_reveal_map_for_test` and decoding make such maps.) -/
theorem C13_odd_map (complete : SnarkComplete) {d : Fin 256} (hd : d.val ≠ 0)
    {pk : TransferProvingKey} {vk : TransferVerifyingKey} (keys : transferPreprocess 2 2 d = .ok (pk, vk))
    {fee_ro ro chg out : RecordOpening} {k0 k1 : UserKeyPair}
    (fee_asset : fee_ro.asset_def = AssetDefinition.native) (fee_unfrozen : fee_ro.freeze_flag = .unfrozen)
    (fee_owner : fee_ro.pub_key.address = k0.address) (ro_unfrozen : ro.freeze_flag = .unfrozen)
    (ro_owner : ro.pub_key.address = k1.address) (ro_code : ro.asset_def.code ≠ dummyCode)
    (chg_asset : chg.asset_def = AssetDefinition.native) (chg_unfrozen : chg.freeze_flag = .unfrozen)
    (chg_amount : chg.amount = fee_ro.amount) (chg_small : chg.amount.val < 2 ^ 127)
    (out_asset : out.asset_def = ro.asset_def) (out_unfrozen : out.freeze_flag = .unfrozen)
    (out_amount : out.amount = ro.amount) (out_small : out.amount.val < 2 ^ 127) (out_owner : out.pub_key.address = 0)
    (owned : ro.pub_key.address ≠ 0)
    (bit0 : ro.asset_def.policy.reveal_map[0] = true) (bit1 : ro.asset_def.policy.reveal_map[1] = false)
    {k : ViewerKeyPair} (viewer : k.pubKey = ro.asset_def.policy.viewer_pk) :
    ∃ n w, OpensTransfer 2 2 d.val n w ∧ (∀ t, n.verify vk n.aux_info.merkle_root t = .ok ()) ∧
      w.inputs.map (·.ro) = [fee_ro.toV, ro.toV] ∧ w.outputs = [chg.toV, out.toV] ∧
      ∀ b, k.openTransferViewingMemo b ro.asset_def n = .error .failedViewableMemoDecryption := by
  obtain ⟨e, he⟩ : ∃ e, d.val = e + 1 := ⟨d.val - 1, by omega⟩
  obtain ⟨π, ho, hv⟩ := viewed_accepted complete he (os := [out.toV]) (chg := chg)
    keys fee_asset fee_unfrozen fee_owner ro_unfrozen ro_owner ro_code
    chg_asset chg_unfrozen chg_amount chg_small
    (by
      intro o ho
      simp only [List.mem_cons, List.not_mem_nil, or_false] at ho
      subst ho
      refine ⟨FreezeFlag.toBool_eq_false.2 out_unfrozen, congrArg (·.code) out_asset,
        congrArg (fun x : AssetDefinition => x.policy.toV) out_asset, ?_⟩
      show (Amount.toF out.amount).val < 2 ^ 127
      rw [Amount.toF_val]; exact out_small)
    (by simp [RecordOpening.toV, out_amount])
  refine ⟨_, _, ho, hv, rfl, rfl, fun b => ?_⟩
  rw [viewed_open b (by simp) viewer, viewed_inputs ro_code (fun _ => owned)]
  have h1 := openOutputs_cons ro.asset_def ro.asset_def.policy.reveal_map.toScalar out.toV []
  have h2 : ViewableData.fromXfrDataAndAsset ro.asset_def
      (outputMsgV ro.asset_def.policy.reveal_map.toScalar out.toV) .output = .error .failedViewableMemoDecryption := by
    rw [outputMsgV_host, bit0, bit1]
    have hz := fetchAddress_zero ro.asset_def
    rw [bit0, if_pos rfl] at hz
    unfold ViewableData.fromXfrDataAndAsset
    simp only [RecordOpening.toV, out_owner, E.xy_zero, boolF, if_true, Bool.false_eq_true, if_false, one_mul, zero_mul,
      List.length_cons, List.length_nil, Nat.zero_add, Nat.reduceAdd, ne_eq, not_true_eq_false, hz]
    rfl
  rw [h2] at h1
  simp only [bind, Except.bind, List.length_cons, List.length_nil] at h1 ⊢
  rw [h1]

end Cap

namespace Cap.Examples
open Toy Spec

/-- the records spent and created by the example transfer, with the hypotheses of `C13_partial` -/
example : ∃ w : TransferWit, OpensTransfer 3 3 1 xfrNote w ∧
    List.Forall₂ Reads [assetRec] ((w.inputs.tail.filter (fun i => !i.ro.isDummy)).map (·.ro)) ∧
    List.Forall₂ Reads [outBob, outAlice] w.outputs.tail ∧ (∃ o ∈ [outBob, outAlice], o.asset_def = asset) ∧
    asset.policy.reveal_map[0] = asset.policy.reveal_map[1] ∧ (∀ r ∈ [assetRec], r.pub_key.address ≠ 0) ∧
    asset.policy.reveal_threshold.val < total [assetRec] ∧ viewer.pubKey = asset.policy.viewer_pk ∧
    asset.policy.viewer_pk ≠ 0 := by
  obtain ⟨w, h, h1, h2, -⟩ := xfr_opens
  refine ⟨w.toV, h, ?_, ?_, ⟨outBob, by simp, rfl⟩, by decide +kernel, ?_, by decide +kernel, rfl, by decide +kernel⟩
  · have hf : ∀ l : List InputV, (l.filter (fun i => !i.ro.isDummy)).map (·.ro) =
        (l.map (·.ro)).filter (fun r => !r.isDummy) := by
      intro l
      rw [List.filter_map]
      rfl
    rw [hf, List.map_tail, h1]
    have h3 : assetRec.toV.isDummy = false := by decide +kernel
    have h4 : dummyRec.toV.isDummy = true := by decide +kernel
    simp only [List.map_cons, List.map_nil, List.tail_cons, List.filter_cons, h3, h4, List.filter_nil, Bool.not_false,
      Bool.not_true, if_true, Bool.false_eq_true, if_false]
    exact .cons (Reads.toV _) .nil
  · rw [h2]
    exact .cons (Reads.toV _) (.cons (Reads.toV _) .nil)
  · intro r hr
    simp only [List.mem_cons, List.not_mem_nil, or_false] at hr
    subst hr
    decide +kernel

/-- what the viewer of the example sees: Alice's input with attribute 2 only, and the two outputs -/
example : viewer.openTransferViewingMemo .debug asset xfrNote =
    .ok ([⟨asset.code, some alice.address, some 50, some 32, [none, some 2, none, none, none, none, none, none]⟩],
      [⟨asset.code, some bob.address, some 20, some 42, List.replicate 8 none⟩,
       ⟨asset.code, some alice.address, some 30, some 43, List.replicate 8 none⟩]) := by
  decide +kernel

/-- `C13_false` applies to Alice's records: she sends 50 units to Bob, and the viewer sees nothing -/
example : ∃ pk vk n w, transferPreprocess 2 3 1 = .ok (pk, vk) ∧ OpensTransfer 2 3 1 n w ∧
    n.verify vk n.aux_info.merkle_root 0 = .ok () ∧
    viewer.openTransferViewingMemo .release asset n = .error .failedViewableMemoDecryption := by
  obtain ⟨n, w, h1, h2, -, -, h3⟩ := C13_false Toy.complete (d := 1) (by decide) (pk := ⟨.transfer 2 3 1, 2, 3, 1⟩)
    (vk := ⟨.transfer 2 3 1, 2, 3, 1⟩) rfl (fee_ro := feeRec) (ro := assetRec) (chg := { chgRec with amount := 100 })
    (out := { outBob with amount := 50 }) (k0 := alice) (k1 := alice) (by decide +kernel) rfl rfl rfl rfl
    (by decide +kernel) (by decide +kernel) rfl rfl (by decide) rfl rfl rfl (by decide) (by decide +kernel)
    (by decide +kernel) (by decide +kernel) (k := viewer) rfl 1
  exact ⟨_, _, n, w, rfl, h1, h2 0, h3 _⟩

/-- `C13_dropped` applies to a record of nobody -/
example : ∃ pk vk n w, transferPreprocess 2 2 1 = .ok (pk, vk) ∧ OpensTransfer 2 2 1 n w ∧
    n.verify vk n.aux_info.merkle_root 0 = .ok () ∧
    viewer.openTransferViewingMemo .release asset n = .ok ([], [viewOutput asset { outBob with amount := 50 }]) := by
  obtain ⟨n, w, h1, h2, -, -, h3⟩ := C13_dropped Toy.complete (d := 1) (by decide) natKeys_eq (fee_ro := feeRec)
    (ro := { assetRec with pub_key := ⟨0, bob.pubKey.enc_key⟩ }) (chg := { chgRec with amount := 100 })
    (out := { outBob with amount := 50 }) (k0 := alice) (enc := (9 : UInt8)) (by decide +kernel) rfl rfl rfl rfl
    (by decide +kernel) (by decide +kernel) rfl rfl (by decide) rfl rfl rfl (by decide)
    (by decide +kernel) (by decide +kernel) (k := viewer) rfl
  exact ⟨_, _, n, w, rfl, h1, h2 0, h3 _⟩

/-- an asset whose map has bit 0 set and bit 1 clear -/
def oddAsset : AssetDefinition :=
  ⟨asset.code, { policy with reveal_map := #v[true, false, true, true, false, true, false, false, false, false, false, false] }⟩

/-- `C13_odd_map` applies to it -/
example : ∃ pk vk n w, transferPreprocess 2 2 1 = .ok (pk, vk) ∧ OpensTransfer 2 2 1 n w ∧
    n.verify vk n.aux_info.merkle_root 0 = .ok () ∧
    viewer.openTransferViewingMemo .release oddAsset n = .error .failedViewableMemoDecryption := by
  obtain ⟨n, w, h1, h2, -, -, h3⟩ := C13_odd_map Toy.complete (d := 1) (by decide) natKeys_eq (fee_ro := feeRec)
    (ro := { assetRec with asset_def := oddAsset }) (chg := { chgRec with amount := 100 })
    (out := ⟨50, oddAsset, ⟨0, bob.pubKey.enc_key⟩, .unfrozen, 42⟩) (k0 := alice) (k1 := alice)
    (by decide +kernel) rfl rfl rfl rfl
    (by decide +kernel) (by decide +kernel) rfl rfl (by decide) rfl rfl rfl (by decide) rfl (by decide +kernel)
    (by decide +kernel) (by decide +kernel) (k := viewer) rfl
  exact ⟨_, _, n, w, rfl, h1, h2 0, h3 _⟩

end Cap.Examples
