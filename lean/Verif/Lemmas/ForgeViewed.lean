/-
Transfers of an asset with a viewer, with outputs that an adversary can choose and a correct memo.  Used to show that a
property fails.
-/
import Verif.Lemmas.Forge
import Verif.Lemmas.ForgeMintFreeze
import Verif.Lemmas.GenerateTransfer
import Verif.Lemmas.GenerateMintFreeze
import Verif.Lemmas.Memo

namespace Cap

open Spec

variable [E : CapEnv] [S : CapExt]

omit S in
/-- a record owned by the coordinates `(0, 0)`, which are not a point -/
def offCurve (amount : Amount) (ad : AssetDefinition) (blind : F) : RecordV :=
  ⟨Amount.toF amount, ad.code, (0, 0), ad.policy.toV, false, blind⟩

omit S in
/-- the assignment: a fee record and a record of the asset are spent, the fee change and `os` are created -/
def viewedWit (fee_ro ro chg : RecordOpening) (k0 k1 : UserKeyPair) (os : List RecordV) (e : ℕ) : TransferWit :=
  ⟨ro.asset_def.code, ro.asset_def.policy.toV,
    [⟨frToFq k0.sk, fee_ro.toV, accLeft ro.toV.commitment e, selfCred ((Fin.last (2 ^ 64 - 1) : U64).val : F)⟩,
      ⟨frToFq k1.sk, ro.toV, accRight fee_ro.toV.commitment e, selfCred ((Fin.last (2 ^ 64 - 1) : U64).val : F)⟩],
    chg.toV :: os, 0⟩

omit S in
/-- the memo: an encryption of the right message -/
def viewedMemo (fee_ro ro chg : RecordOpening) (k0 k1 : UserKeyPair) (os : List RecordV) (e : ℕ) : ViewableMemo :=
  viewerEncrypt ro.asset_def.policy.viewer_pk 0 (transferMsgV (viewedWit fee_ro ro chg k0 k1 os e))

omit S in
/-- the statement -/
def viewedPub (fee_ro ro chg : RecordOpening) (k0 k1 : UserKeyPair) (os : List RecordV) (e : ℕ) :
    TransferPublicInput :=
  { merkle_root := pairRoot fee_ro.toV.commitment ro.toV.commitment e, native_asset_code := nativeCode,
    valid_until := Fin.last _, fee := 0,
    input_nullifiers :=
      [spendNullifier fee_ro.toV (accLeft ro.toV.commitment e) (frToFq k0.sk) .user,
        spendNullifier ro.toV (accRight fee_ro.toV.commitment e) (frToFq k1.sk) .user],
    output_commitments := chg.toV.commitment :: os.map (·.commitment),
    viewing_memo := viewedMemo fee_ro ro chg k0 k1 os e }

/-- the note -/
def viewedNote (fee_ro ro chg : RecordOpening) (k0 k1 : UserKeyPair) (os : List RecordV) (e : ℕ) (π : S.Proof) :
    TransferNote :=
  ⟨[spendNullifier fee_ro.toV (accLeft ro.toV.commitment e) (frToFq k0.sk) .user,
      spendNullifier ro.toV (accRight fee_ro.toV.commitment e) (frToFq k1.sk) .user],
    chg.toV.commitment :: os.map (·.commitment), π, viewedMemo fee_ro ro chg k0 k1 os e,
    ⟨pairRoot fee_ro.toV.commitment ro.toV.commitment e, 0, Fin.last _, 0, []⟩⟩

omit S in
theorem outputs_ok {w : TransferWit} {p : TransferPub} : ∀ {os : List RecordV},
    (∀ o ∈ os, OutputOk w p false o o.commitment) → AllPos (OutputOk w p) false os (os.map (·.commitment))
  | [], _ => trivial
  | o :: os, h => ⟨h o (by simp), outputs_ok (fun x hx => h x (List.mem_cons_of_mem _ hx))⟩

/-- Under a complete proof system the note is accepted. -/
theorem viewed_accepted (complete : SnarkComplete) {d : Fin 256} {e : ℕ} (hd : d.val = e + 1)
    {fee_ro ro chg : RecordOpening} {k0 k1 : UserKeyPair} {os : List RecordV}
    {pk : TransferProvingKey} {vk : TransferVerifyingKey}
    (keys : transferPreprocess 2 (os.length + 1) d = .ok (pk, vk))
    (fee_asset : fee_ro.asset_def = AssetDefinition.native) (fee_unfrozen : fee_ro.freeze_flag = .unfrozen)
    (fee_owner : fee_ro.pub_key.address = k0.address) (ro_unfrozen : ro.freeze_flag = .unfrozen)
    (ro_owner : ro.pub_key.address = k1.address) (ro_code : ro.asset_def.code ≠ dummyCode)
    (chg_asset : chg.asset_def = AssetDefinition.native) (chg_unfrozen : chg.freeze_flag = .unfrozen)
    (chg_amount : chg.amount = fee_ro.amount) (chg_small : chg.amount.val < 2 ^ 127)
    (outs : ∀ o ∈ os, o.freeze_flag = false ∧ o.asset_code = ro.asset_def.code ∧
      o.policy = ro.asset_def.policy.toV ∧ o.amount.val < 2 ^ 127)
    (sum : (os.map (·.amount)).sum = Amount.toF ro.amount) :
    ∃ π, OpensTransfer 2 (os.length + 1) d.val (viewedNote fee_ro ro chg k0 k1 os e π)
        (viewedWit fee_ro ro chg k0 k1 os e) ∧
      ∀ t, (viewedNote fee_ro ro chg k0 k1 os e π).verify vk
        (viewedNote fee_ro ro chg k0 k1 os e π).aux_info.merkle_root t = .ok () := by
  have hnd : (nativeCode : F) ≠ dummyCode := native_ne_dummy
  have hfee : (fee_ro.toV.asset_code : F) = nativeCode := (native_toV fee_asset).1
  have hmap : ro.asset_def.policy.toV.reveal_map.val < 2 ^ 12 := by
    rw [AssetPolicy.toV, RevealMap.toScalar_val]; exact RevealMap.toNat_lt _
  have hlen : (transferMsgV (viewedWit fee_ro ro chg k0 k1 os e)).length = 13 + os.length * 4 := by
    have h12 := inputMsgV_length (map := ro.asset_def.policy.toV.reveal_map) (i := ⟨frToFq k1.sk, ro.toV,
      accRight fee_ro.toV.commitment e, selfCred ((Fin.last (2 ^ 64 - 1) : U64).val : F)⟩) (Forgery.selfCred_ok _).1
    unfold transferMsgV viewedWit
    rw [List.length_append, List.length_append, List.tail_cons,
      flatMap_length_const (fun o _ => outputMsgV_length _ o)]
    rw [List.tail_cons, List.flatMap_cons, List.flatMap_nil, List.append_nil, h12]
    rfl
  have hmemo : (viewedMemo fee_ro ro chg k0 k1 os e).toV = MemoV.derive (E.xy ro.asset_def.policy.viewer_pk)
      (transferMsgV (viewedWit fee_ro ro chg k0 k1 os e)) 0 := by
    unfold viewedMemo viewerEncrypt MemoV.derive ViewableMemo.toV
    rw [E.ecMul_xy]
    simp only [ZMod.val_zero, zero_nsmul, smulFr]
  have hml : (viewedMemo fee_ro ro chg k0 k1 os e).toV.data.length = 13 + os.length * 4 := by
    rw [hmemo, MemoV.derive, applyStream_length, hlen]
  have hshape : TransferShape 2 (os.length + 1) d.val (viewedWit fee_ro ro chg k0 k1 os e)
      (viewedPub fee_ro ro chg k0 k1 os e).toV := by
    refine ⟨rfl, rfl, rfl, ?_, ?_, ?_⟩
    · simp [viewedPub, TransferPublicInput.toV]
    · intro i hi
      simp only [viewedWit, List.mem_cons, List.not_mem_nil, or_false] at hi
      rcases hi with rfl | rfl <;> simp [accLeft, accRight, edge, hd]
    · refine hml.trans ?_
      simp only [VIEWABLE_DATA_LEN, REVEAL_MAP_LEN, ATTRS_LEN]
      omega
  have hsat : TransferSat (viewedWit fee_ro ro chg k0 k1 os e) (viewedPub fee_ro ro chg k0 k1 os e).toV := by
    refine ⟨?_, ?_, ?_, hmap, Forgery.zero_ok, hml.trans hlen.symm, Or.inr (decide_eq_true hmemo)⟩
    · refine ⟨⟨FreezeFlag.toBool_eq_false.2 fee_unfrozen, Or.inl ?_, ?_, (SpendOk_user_host _ _).2 fee_owner, rfl,
        Or.inr rfl, (Forgery.selfCred_ok _).1, (Forgery.selfCred_ok _).2, Or.inr (selfCred_valid _)⟩,
        ⟨FreezeFlag.toBool_eq_false.2 ro_unfrozen, Or.inl ?_, ?_, (SpendOk_user_host _ _).2 ro_owner, rfl,
        Or.inr rfl, (Forgery.selfCred_ok _).1, (Forgery.selfCred_ok _).2, Or.inr (selfCred_valid _)⟩, ?_⟩
      · simp [RecordV.isDummy, hfee, hnd]
      · simp only [InputPosOk, if_true]
        exact ⟨hfee, PolicyV.enforceDummy_iff.2 (native_toV fee_asset).2⟩
      · simp [RecordV.isDummy, RecordOpening.toV, ro_code]
      · simp only [InputPosOk, Bool.false_eq_true, if_false]
        exact ⟨Or.inl (by simp [RecordV.isDummy, RecordOpening.toV, ro_code]), Or.inr (PolicyV.checkEqual_iff.2 rfl)⟩
      · trivial
    · refine ⟨⟨FreezeFlag.toBool_eq_false.2 chg_unfrozen, ?_, rfl, ?_⟩, outputs_ok ?_⟩
      · simp only [if_true]
        exact ⟨(native_toV chg_asset).1, PolicyV.enforceDummy_iff.2 (native_toV chg_asset).2⟩
      · show (Amount.toF chg.amount).val < 2 ^ 127
        rw [Amount.toF_val]; exact chg_small
      · intro o ho
        obtain ⟨h1, h2, h3, h4⟩ := outs o ho
        refine ⟨h1, ?_, rfl, h4⟩
        simp only [Bool.false_eq_true, if_false]
        exact ⟨h2, PolicyV.enforceEqual_iff.2 h3⟩
    · refine preserveBalance_iff.2 ?_
      have h0 : (viewedPub fee_ro ro chg k0 k1 os e).toV.fee = 0 := Amount.toF_zero
      rw [h0]
      simp only [viewedWit, sumTail, List.map_cons, List.map_nil, List.tail_cons, List.sum_cons, List.sum_nil, add_zero,
        sum, RecordOpening.toV, chg_amount]
      exact ⟨fun _ => ⟨trivial, trivial⟩, fun _ => trivial⟩
  obtain ⟨-, -, k, hk⟩ := transferPreprocess_key keys
  obtain ⟨π, -, hv⟩ := complete _ _ _ hk (.transfer (viewedWit fee_ro ro chg k0 k1 os e) _) hshape hsat
    (E.verKeyBytes (0 : Pt) ++ []) 0
  exact ⟨π, ⟨hshape, hsat⟩, fun t => TransferNote.verify_ok.2 ⟨rfl, Fin.le_last t, hv⟩⟩

omit S in
theorem openOutputs_cons (ad : AssetDefinition) (m : F) (o : RecordV) (os : List RecordV) :
    openOutputs ad (os.length + 1) ((o :: os).flatMap (outputMsgV m)) = (do
      let vd ← ViewableData.fromXfrDataAndAsset ad (outputMsgV m o) .output
      let vs ← openOutputs ad os.length (os.flatMap (outputMsgV m))
      .ok (vd :: vs)) := by
  have hl := outputMsgV_length m o
  rw [List.flatMap_cons, openOutputs, if_neg (by rw [List.length_append, hl]; omega), ← hl, List.take_left',
    List.drop_left']
  · rfl
  · rfl

omit S in
/-- an output owned by `(0, 0)` cannot be shown if the map reveals addresses -/
theorem fromXfr_offCurve (ad : AssetDefinition) (h : ad.policy.reveal_map[0] = true) (amount : Amount) (blind : F) :
    ViewableData.fromXfrDataAndAsset ad (outputMsgV ad.policy.reveal_map.toScalar (offCurve amount ad blind)) .output =
      .error .failedViewableMemoDecryption := by
  rw [outputMsgV_host]
  unfold ViewableData.fromXfrDataAndAsset offCurve
  have hz := fetchAddress_zero ad
  rw [h, if_pos rfl] at hz
  simp only [mul_zero, List.length_cons, List.length_nil, Nat.zero_add, Nat.reduceAdd, ne_eq, not_true_eq_false,
    if_false, hz]
  rfl

omit S in
/-- the spent record of the asset, read by the viewer -/
theorem viewed_inputs {fee_ro ro chg : RecordOpening} {k0 k1 : UserKeyPair} {os : List RecordV} {e : ℕ}
    (ro_code : ro.asset_def.code ≠ dummyCode)
    (owned : ro.asset_def.policy.reveal_map[0] = true → ro.pub_key.address ≠ 0) (rest : List F) :
    openInputs ro.asset_def 1 (((viewedWit fee_ro ro chg k0 k1 os e).inputs.tail).flatMap
        (inputMsgV ro.asset_def.policy.reveal_map.toScalar) ++ rest) =
      .ok ([viewInput ro.asset_def ro (List.replicate 8 0)], rest) := by
  have hd : ro.toV.isDummy = false := by simp [RecordV.isDummy, RecordOpening.toV, ro_code]
  have hi := openInputs_seen ro.asset_def (is := (viewedWit fee_ro ro chg k0 k1 os e).inputs.tail) (ros := [ro])
    (by
      intro i hi
      simp only [viewedWit, List.tail_cons, List.mem_cons, List.not_mem_nil, or_false] at hi
      subst hi
      exact ⟨(Forgery.selfCred_ok _).1, Or.inl hd⟩)
    (by
      rw [viewedWit, List.tail_cons, List.filter_cons_of_pos (by simp [hd])]
      exact .cons (Reads.toV ro) .nil)
    (by
      intro hb r hr
      simp only [List.mem_cons, List.not_mem_nil, or_false] at hr
      subst hr
      exact owned hb) rest
  have hlen : (viewedWit fee_ro ro chg k0 k1 os e).inputs.tail.length = 1 := rfl
  rw [hlen] at hi
  rw [hi, viewedWit, List.tail_cons, List.filter_cons_of_pos (by simp [hd])]
  rfl

omit S in
/-- the same for a record of the neutral address: it is taken for a dummy -/
theorem viewed_input_neutral {fee_ro ro chg : RecordOpening} {k0 k1 : UserKeyPair} {os : List RecordV} {e : ℕ}
    (ro_code : ro.asset_def.code ≠ dummyCode) (reveals : ro.asset_def.policy.reveal_map[0] = true)
    (neutral : ro.pub_key.address = 0) (rest : List F) :
    openInputs ro.asset_def 1 (((viewedWit fee_ro ro chg k0 k1 os e).inputs.tail).flatMap
        (inputMsgV ro.asset_def.policy.reveal_map.toScalar) ++ rest) = .ok ([], rest) := by
  have hd : ro.toV.isDummy = false := by simp [RecordV.isDummy, RecordOpening.toV, ro_code]
  have ha := (Forgery.selfCred_ok ((Fin.last (2 ^ 64 - 1) : U64).val : F)).1
  have hm := inputMsgV_host (m := ro.asset_def.policy.reveal_map) (i := ⟨frToFq k1.sk, ro.toV,
      accRight fee_ro.toV.commitment e, selfCred ((Fin.last (2 ^ 64 - 1) : U64).val : F)⟩) hd ha
  have hl := inputMsgV_length (map := ro.asset_def.policy.reveal_map.toScalar) (i := ⟨frToFq k1.sk, ro.toV,
      accRight fee_ro.toV.commitment e, selfCred ((Fin.last (2 ^ 64 - 1) : U64).val : F)⟩) ha
  have hv := fromXfr_input ro.asset_def ro ha
  have hv' : ViewableData.fromXfrDataAndAsset ro.asset_def (inputMsgV ro.asset_def.policy.reveal_map.toScalar
      ⟨frToFq k1.sk, ro.toV, accRight fee_ro.toV.commitment e, selfCred ((Fin.last (2 ^ 64 - 1) : U64).val : F)⟩)
      .input = .ok (viewInput ro.asset_def ro (selfCred ((Fin.last (2 ^ 64 - 1) : U64).val : F)).attrs) := by
    rw [hm]
    exact hv
  rw [viewedWit, List.tail_cons, List.flatMap_cons, List.flatMap_nil, List.append_nil, openInputs,
    if_neg (by rw [List.length_append, hl]; simp [VIEWABLE_DATA_LEN, REVEAL_MAP_LEN, ATTRS_LEN]),
    show VIEWABLE_DATA_LEN = 12 from rfl, ← hl, List.take_left', List.drop_left', hv']
  · simp [bind, Except.bind, openInputs, viewInput, viewOf, reveals, neutral]
  · rfl
  · rfl

/-- opening the memo of that note -/
theorem viewed_open (b : Build) {fee_ro ro chg : RecordOpening} {k0 k1 : UserKeyPair} {os : List RecordV} {e : ℕ}
    {π : S.Proof} (hl : os.length < 2 ^ 64 - 1) {k : ViewerKeyPair} (viewer : k.pubKey = ro.asset_def.policy.viewer_pk) :
    k.openTransferViewingMemo b ro.asset_def (viewedNote fee_ro ro chg k0 k1 os e π) = (do
      let (ins, rest) ← openInputs ro.asset_def 1
        (((viewedWit fee_ro ro chg k0 k1 os e).inputs.tail).flatMap
          (inputMsgV ro.asset_def.policy.reveal_map.toScalar) ++
          os.flatMap (outputMsgV ro.asset_def.policy.reveal_map.toScalar))
      let outs ← openOutputs ro.asset_def os.length rest
      .ok (ins, outs)) := by
  have hdec : k.decrypt (viewedMemo fee_ro ro chg k0 k1 os e) = ro.asset_def.code ::
      (((viewedWit fee_ro ro chg k0 k1 os e).inputs.tail).flatMap
          (inputMsgV ro.asset_def.policy.reveal_map.toScalar) ++
          os.flatMap (outputMsgV ro.asset_def.policy.reveal_map.toScalar)) := by
    have := decrypt_encrypt k 0 (transferMsgV (viewedWit fee_ro ro chg k0 k1 os e))
    rw [viewer] at this
    exact this
  have h12 := inputMsgV_length (map := ro.asset_def.policy.reveal_map.toScalar) (i := ⟨frToFq k1.sk, ro.toV,
      accRight fee_ro.toV.commitment e, selfCred ((Fin.last (2 ^ 64 - 1) : U64).val : F)⟩) (Forgery.selfCred_ok _).1
  unfold ViewerKeyPair.openTransferViewingMemo
  have h1 : (viewedNote fee_ro ro chg k0 k1 os e π).inputs_nullifiers.length = 1 + 1 := rfl
  have h2 : (viewedNote fee_ro ro chg k0 k1 os e π).output_commitments.length = os.length + 1 := by
    simp [viewedNote]
  have h3 : (viewedNote fee_ro ro chg k0 k1 os e π).viewing_memo = viewedMemo fee_ro ro chg k0 k1 os e := rfl
  rw [if_neg (by simp [viewer]), h1, h2, h3, hdec]
  simp only [usizePred, bind, Except.bind]
  rw [if_neg]
  · simp only [ne_eq, not_true_eq_false, if_false]
  · rw [List.length_cons, List.length_append, flatMap_length_const (fun o _ => outputMsgV_length _ o), viewedWit,
      List.tail_cons, List.flatMap_cons, List.flatMap_nil, List.append_nil, h12, memoExpectedLen, if_neg (by omega)]
    simp only [VIEWABLE_DATA_LEN, REVEAL_MAP_LEN, ATTRS_LEN]
    omega

end Cap
