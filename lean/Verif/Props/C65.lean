/-
C65: what a viewer is shown is what the transaction did.

status: partial
note: C65_partial (assignments), C65_accepted_partial (from verify, under SnarkSound): if more than the threshold of an asset with a viewer goes out, then whatever the viewer is shown is what the assignment's records are, field by field, and nothing hidden is shown; C65_mint for mints, for the viewer named in the policy. Conditions: the transfer does move that asset, above the threshold (which the viewer cannot tell from the memo), and the two address bits of the map agree. Without them the property is false in every environment: C65_false, C65_native_false (any accepted transfer of an asset without viewer, or under the threshold, has an accepted twin that shows the viewer of any asset whatever its author likes), C65_mint_false (the same for mints of assets without viewer).
-/
import Verif.Lemmas.View
import Verif.Props.C13
import Verif.Props.C15
import Verif.Props.C18
import Verif.Lemmas.Generated

namespace Cap

open Spec

variable [E : CapEnv] [S : CapExt]

/-- the circuit's test, in terms of what goes out -/
theorem underLimit_outputs {a c d : ℕ} {n : TransferNote} {w : TransferWit} (h : OpensTransfer a c d n w) (hc : c < 2 ^ 64)
    {t : Amount} (ht : w.policy.reveal_threshold = Amount.toF t) (foreign : w.asset_code ≠ nativeCode) :
    underLimit w = true ↔ (w.outputs.tail.map (·.amount.val)).sum ≤ t.val ∧
      t.val - (w.outputs.tail.map (·.amount.val)).sum < 2 ^ 127 := by
  obtain ⟨i0, is, o0, os, nl, nls, cm, cs, hp⟩ := h.sat.parts h.shape
  have hb := (preserveBalance_iff.1 hp.balance).1 (fun e => foreign e.symm)
  have hs : natSum (os.map (·.amount)) < 2 ^ 200 := by
    have h1 := natSum_le (os.map (·.amount)) (2 ^ 127) (by
      intro x hx
      obtain ⟨o, ho, rfl⟩ := List.mem_map.1 hx
      obtain ⟨y, -, hy⟩ := hp.mem_out ho
      exact le_of_lt hy.2.2.2)
    have h2 : os.length < 2 ^ 64 := by
      have := h.shape.outputs_len
      rw [hp.outputs, List.length_cons] at this
      omega
    rw [List.length_map] at h1
    have h3 : os.length * 2 ^ 127 ≤ 2 ^ 64 * 2 ^ 127 := Nat.mul_le_mul_right _ (by omega)
    have h4 : (2 : ℕ) ^ 64 * 2 ^ 127 < 2 ^ 200 := by norm_num
    omega
  have hsum : natSum (os.map (·.amount)) = (os.map (·.amount.val)).sum := by
    unfold natSum
    rw [List.map_map]
    rfl
  rw [underLimit_iff (t := t.val) (s := natSum (os.map (·.amount))) (lt_trans t.isLt (by norm_num)) hs ht
    (by rw [hb.2, hp.outputs, natSum_cast, sumTail]; rfl), hsum, hp.outputs, List.tail_cons]

/-- **Assignments.**  If more than the threshold of an asset with a viewer goes out, then whatever its viewer is shown is
there: the data shown for the outputs are those of the created records, one by one, and the data shown for the inputs are
those of the spent records (without the dummies).  A field that the map does not reveal is not shown. -/
theorem C65_partial (b : Build) {a c d : ℕ} {n : TransferNote} {w : TransferWit} (h : OpensTransfer a c d n w)
    (hc : c < 2 ^ 64) {ad : AssetDefinition} (code : w.asset_code = ad.code)
    (policy : w.policy = ad.policy.toV) (foreign : ad.code ≠ nativeCode) (named : ad.policy.viewer_pk ≠ 0)
    (agree : ad.policy.reveal_map[0] = ad.policy.reveal_map[1])
    (over : ad.policy.reveal_threshold.val < (w.outputs.tail.map (·.amount.val)).sum)
    {k : ViewerKeyPair} {vins vouts : List ViewableData} (opened : k.openTransferViewingMemo b ad n = .ok (vins, vouts)) :
    List.Forall₂ (ShowsOutput ad) vouts w.outputs.tail ∧
      List.Forall₂ (ShowsInput ad) vins (shownInputs ad w.inputs.tail) := by
  obtain ⟨i0, is, o0, os, nl, nls, cm, cs, hp⟩ := h.sat.parts h.shape
  have hul : ¬ underLimit w = true := by
    rw [underLimit_outputs h hc (t := ad.policy.reveal_threshold) (by rw [policy]; rfl) (by rw [code]; exact foreign)]
    omega
  have hl1 : n.inputs_nullifiers.length = is.length + 1 := by
    have h1 := h.shape.inputs_len
    rw [hp.inputs] at h1
    exact h.shape.nullifiers_len.trans h1.symm
  have hl2 : n.output_commitments.length = os.length + 1 := by
    have h1 := h.shape.outputs_len
    rw [hp.outputs] at h1
    exact h.shape.commitments_len.trans h1.symm
  have hattrs : ∀ i ∈ is, i.cred.attrs.length = 8 := by
    intro i hi
    obtain ⟨x, -, hx⟩ := hp.mem_in hi
    exact hx.2.2.2.2.2.2.1
  unfold ViewerKeyPair.openTransferViewingMemo at opened
  split at opened
  · cases opened
  rename_i viewer
  have viewer : k.pubKey = ad.policy.viewer_pk := not_not.1 viewer
  have hdec : k.decrypt n.viewing_memo = ad.code :: (is.flatMap (inputMsgV ad.policy.reveal_map.toScalar) ++
      os.flatMap (outputMsgV ad.policy.reveal_map.toScalar)) := by
    rcases h.sat.memo with (hm | hm) | hm
    · exact absurd hm hul
    · rw [policy] at hm
      exact absurd ((isDummyViewingPk_host _).1 hm) named
    · have hm' : n.pub.toV.memo = MemoV.derive w.policy.viewer_pk (transferMsgV w) w.enc_rand := of_decide_eq_true hm
      rw [policy, AssetPolicy.toV, ← viewer] at hm'
      have : k.decrypt n.viewing_memo = _ := decrypt_derive k hm'
      rw [this, transferMsgV, policy, code, hp.inputs, hp.outputs]
      rfl
  rw [hl1, hl2, hdec] at opened
  simp only [usizePred, bind_ok_iff, Except.ok.injEq, exists_eq_left'] at opened
  split at opened
  · cases opened
  simp only [ne_eq, not_true_eq_false, if_false, bind_ok_iff] at opened
  obtain ⟨r, h1, outs, h2, h3⟩ := opened
  obtain ⟨e1, e2⟩ := openInputs_shows hattrs h1
  cases h3
  rw [e1] at h2
  rw [hp.inputs, hp.outputs]
  exact ⟨openOutputs_shows agree h2, e2⟩

/-- **End to end.**  Of an accepted transfer that creates a record of the asset and moves more than the threshold of it,
the viewer is shown what was done, and the record exactly; or the commitment function collides on the two named inputs. -/
theorem C65_accepted_partial (sound : SnarkSound) {a c : ℕ} {d : Fin 256} {pk : TransferProvingKey}
    {vk : TransferVerifyingKey} (keys : transferPreprocess a c d = .ok (pk, vk)) (hc : c < 2 ^ 64)
    {n : TransferNote} {root : F} {t : U64} (ok : n.verify vk root t = .ok ())
    (hn : n.inputs_nullifiers.length = a) (hm : n.output_commitments.length = c) :
    ∃ w, OpensTransfer a c d.val n w ∧
      ∀ (o : RecordOpening) (j : ℕ), n.output_commitments.tail[j]? = some o.commitment → o.asset_def.code ≠ nativeCode →
        o.asset_def.policy.viewer_pk ≠ 0 → o.asset_def.policy.reveal_map[0] = o.asset_def.policy.reveal_map[1] →
        o.asset_def.policy.reveal_threshold.val < (w.outputs.tail.map (·.amount.val)).sum →
        ∀ (b : Build) (k : ViewerKeyPair) (vins vouts : List ViewableData),
          k.openTransferViewingMemo b o.asset_def n = .ok (vins, vouts) →
          (List.Forall₂ (ShowsOutput o.asset_def) vouts w.outputs.tail ∧
            List.Forall₂ (ShowsInput o.asset_def) vins (shownInputs o.asset_def w.inputs.tail) ∧
            vouts[j]? = some (viewOutput o.asset_def o)) ∨
          ∃ r, w.outputs.tail[j]? = some r ∧ Collides commitOf (o.scalars, o.blind) (r.scalars, r.blind) := by
  obtain ⟨w, hw⟩ := transfer_opened sound keys ok hn hm
  refine ⟨w, hw, ?_⟩
  intro o j hj foreign named agree over b k vins vouts opened
  obtain ⟨i0, is, o0, os, nl, nls, cm, cs, hp⟩ := hw.sat.parts hw.shape
  have hcs : n.output_commitments = cm :: cs := hp.commitments
  rw [hcs, List.tail_cons] at hj
  have hlen := hp.outs.length_eq
  have hjl : j < os.length := by rw [hlen]; exact (List.getElem?_eq_some_iff.1 hj).1
  obtain ⟨r, hr⟩ : ∃ r, os[j]? = some r := ⟨_, List.getElem?_eq_getElem hjl⟩
  have hok : OutputOk w n.pub.toV false r o.commitment := by
    obtain ⟨_, e1⟩ := List.getElem?_eq_some_iff.1 hj
    obtain ⟨_, e2⟩ := List.getElem?_eq_some_iff.1 hr
    rw [← e1, ← e2]
    exact (List.forall₂_iff_get.1 hp.outs).2 j _ _
  rcases reads_or_collides (hok.2.2.1.symm : o.commitment = r.commitment) with hR | hC
  · left
    have hc1 := hok.2.1
    simp only [Bool.false_eq_true, if_false] at hc1
    have hpol := (hp.map_in hw.sat).2.2.2 r (List.mem_of_getElem? hr)
    have e := reads_small hR (by rw [hpol]; exact hw.sat.map_range)
    have policy : w.policy = o.asset_def.policy.toV := by rw [← hpol, e]; rfl
    have code : w.asset_code = o.asset_def.code := by rw [← hc1.1, e]; rfl
    obtain ⟨s1, s2⟩ := C65_partial b hw hc code policy foreign named agree over opened
    refine ⟨s1, s2, ?_⟩
    rw [hp.outputs, List.tail_cons] at s1
    have hl := s1.length_eq
    obtain ⟨v, hv⟩ : ∃ v, vouts[j]? = some v := ⟨_, List.getElem?_eq_getElem (by omega)⟩
    have hs : ShowsOutput o.asset_def v r := by
      obtain ⟨_, e1⟩ := List.getElem?_eq_some_iff.1 hv
      obtain ⟨_, e2⟩ := List.getElem?_eq_some_iff.1 hr
      rw [← e1, ← e2]
      exact (List.forall₂_iff_get.1 s1).2 j _ _
    rw [hv]
    obtain ⟨⟨q1, q2, q3, q4⟩, q5⟩ := hs
    subst e
    congr 1
    obtain ⟨vc, vu, va, vb, vt⟩ := v
    dsimp only at q1 q2 q3 q4 q5
    unfold viewOutput viewOf
    rw [q1, q4, q5]
    congr 1
    · cases hb : o.asset_def.policy.reveal_map[0] with
      | false => rw [hb] at q2; exact q2
      | true =>
        rw [hb, if_pos rfl] at q2
        obtain ⟨P, rfl, hP⟩ := q2
        rw [xy_inj (hP : E.xy P = E.xy o.pub_key.address)]
        rfl
    · cases hb : o.asset_def.policy.reveal_map[2] with
      | false => rw [hb] at q3; exact q3
      | true =>
        rw [hb, if_pos rfl] at q3
        obtain ⟨x, rfl, hx⟩ := q3
        rw [Amount.toF_inj (hx : Amount.toF x = Amount.toF o.amount)]
        rfl
  · right
    rw [hp.outputs]
    exact ⟨r, hr, hC⟩

/-- What the viewer named in the policy is shown of a mint, for a given assignment. -/
theorem C65_mint_opened {d : ℕ} {n : MintNote} {w : MintWit} (h : OpensMint d n w)
    {k : ViewerKeyPair} (viewer : k.pubKey = n.mint_asset_def.policy.viewer_pk)
    (named : n.mint_asset_def.policy.viewer_pk ≠ 0) {v : ViewableData} (opened : k.openMintViewingMemo n = .ok v) :
    v.asset_code = w.mint_ro.asset_code ∧
      (∀ P, v.user_address = some P → E.xy P = w.mint_ro.owner_addr) ∧
      (n.mint_asset_def.policy.reveal_map[0] = true → v.user_address ≠ none) ∧
      (v.amount = if n.mint_asset_def.policy.reveal_map[2] then some n.mint_amount else none) ∧
      Amount.toF n.mint_amount = w.mint_ro.amount ∧
      v.blinding_factor = if n.mint_asset_def.policy.reveal_map[3] then some w.mint_ro.blind else none := by
  obtain ⟨-, -, h3, h4, -⟩ := C45_opened h
  unfold ViewerKeyPair.openMintViewingMemo at opened
  rw [C15_opened h viewer named] at opened
  simp only [List.length_cons, List.length_nil, Nat.zero_add, Nat.reduceAdd, ne_eq, not_true_eq_false, if_false,
    ViewableData.fromMintNote, bind_ok_iff] at opened
  obtain ⟨ua, e1, e2⟩ := opened
  cases e2
  refine ⟨h4.symm, ?_, ?_, rfl, h3.symm, rfl⟩
  · intro P hP
    have hP : ua = some P := hP
    subst hP
    unfold ViewableData.fetchAddress at e1
    cases hx : E.ofXY (w.mint_ro.owner_addr.1, w.mint_ro.owner_addr.2) with
    | none => rw [hx] at e1; dsimp only at e1; split at e1 <;> cases e1
    | some Q =>
      rw [hx] at e1
      dsimp only at e1
      split at e1
      · cases e1
        exact (E.ofXY_iff _ _).1 hx
      · cases e1
  · intro hb hn
    have hn : ua = none := hn
    subst hn
    unfold ViewableData.fetchAddress AssetPolicy.isUserAddressRevealed RevealMap.isUserAddressRevealed at e1
    rw [hb] at e1
    cases hx : E.ofXY (w.mint_ro.owner_addr.1, w.mint_ro.owner_addr.2) with
    | none => rw [hx] at e1; simp at e1
    | some Q => rw [hx] at e1; simp at e1

/-- **Mints.**  What the viewer named in the policy is shown of an accepted mint is the minted record, for some assignment:
its owner if that is revealed (or neutral), the amount and the blinding factor if they are revealed. -/
theorem C65_mint (sound : SnarkSound) {d : Fin 256} {pk : MintProvingKey} {vk : MintVerifyingKey}
    (keys : mintPreprocess d = .ok (pk, vk)) {n : MintNote} {root : F} (ok : n.verify vk root = .ok ())
    {k : ViewerKeyPair} (viewer : k.pubKey = n.mint_asset_def.policy.viewer_pk)
    (named : n.mint_asset_def.policy.viewer_pk ≠ 0) {v : ViewableData} (opened : k.openMintViewingMemo n = .ok v) :
    ∃ w, OpensMint d.val n w ∧ v.asset_code = w.mint_ro.asset_code ∧
      (∀ P, v.user_address = some P → E.xy P = w.mint_ro.owner_addr) ∧
      (n.mint_asset_def.policy.reveal_map[0] = true → v.user_address ≠ none) ∧
      (v.amount = if n.mint_asset_def.policy.reveal_map[2] then some n.mint_amount else none) ∧
      Amount.toF n.mint_amount = w.mint_ro.amount ∧
      v.blinding_factor = if n.mint_asset_def.policy.reveal_map[3] then some w.mint_ro.blind else none := by
  obtain ⟨w, h⟩ := mint_opened sound keys ok
  exact ⟨w, h, C65_mint_opened h viewer named opened⟩

/-! ### What nobody checks -/

omit S in
/-- the spent records somebody would like to pretend, with attributes -/
def pretendedInputs (ins : List (RecordOpening × List F)) : List InputV :=
  ins.map (fun x => ⟨0, x.1.toV, ⟨0, []⟩, ⟨x.2, 0, (selfCred (0 : F)).cred, neutral, neutral⟩⟩)

omit S in
/-- the message -/
def pretended (ad : AssetDefinition) (ins : List (RecordOpening × List F)) (outs : List RecordOpening) : List F :=
  ad.code :: ((pretendedInputs ins).flatMap (inputMsgV ad.policy.reveal_map.toScalar) ++
    (outs.map RecordOpening.toV).flatMap (outputMsgV ad.policy.reveal_map.toScalar))

omit S in
theorem pretended_length {ad : AssetDefinition} {ins : List (RecordOpening × List F)} {outs : List RecordOpening}
    (attrs : ∀ x ∈ ins, x.2.length = 8) : (pretended ad ins outs).length = 1 + ins.length * 12 + outs.length * 4 := by
  unfold pretended
  rw [List.length_cons, List.length_append, flatMap_length_const (fun o _ => outputMsgV_length _ o),
    flatMap_length_const (k := 12)]
  · simp only [pretendedInputs, List.length_map]
    omega
  · intro i hi
    obtain ⟨x, hx, rfl⟩ := List.mem_map.1 hi
    exact inputMsgV_length (attrs x hx)

/-- what the viewer is shown of it -/
theorem pretended_open (b : Build) {ad : AssetDefinition} {ins : List (RecordOpening × List F)} {outs : List RecordOpening}
    (attrs : ∀ x ∈ ins, x.2.length = 8) (real : ∀ x ∈ ins, x.1.asset_def.code ≠ dummyCode)
    (owned : ad.policy.reveal_map[0] = true → ∀ x ∈ ins, x.1.pub_key.address ≠ 0)
    (agree : ad.policy.reveal_map[0] = ad.policy.reveal_map[1]) {k : ViewerKeyPair}
    (viewer : k.pubKey = ad.policy.viewer_pk) {n : TransferNote} (hi : n.inputs_nullifiers.length = ins.length + 1)
    (ho : n.output_commitments.length = outs.length + 1) (hl1 : ins.length + 1 < 2 ^ 64) (hl2 : outs.length + 1 < 2 ^ 64)
    (rand : Fr) (memo : n.viewing_memo = viewerEncrypt k.pubKey rand (pretended ad ins outs)) :
    k.openTransferViewingMemo b ad n =
      .ok (ins.map (fun x => viewInput ad x.1 x.2), outs.map (viewOutput ad)) := by
  have hreal : (pretendedInputs ins).filter (fun i => !i.ro.isDummy) = pretendedInputs ins := by
    rw [List.filter_eq_self]
    intro i hi
    obtain ⟨x, hx, rfl⟩ := List.mem_map.1 hi
    have : x.1.toV.isDummy = false := by simp [RecordV.isDummy, RecordOpening.toV, real x hx]
    simp [this]
  have hoi := openInputs_seen ad (is := pretendedInputs ins) (ros := ins.map (·.1))
    (by
      intro i hi
      obtain ⟨x, hx, rfl⟩ := List.mem_map.1 hi
      exact ⟨attrs x hx, Or.inl (by simp [RecordV.isDummy, RecordOpening.toV, real x hx])⟩)
    (by
      rw [hreal, pretendedInputs, List.map_map, List.forall₂_map_left_iff, List.forall₂_map_right_iff, List.forall₂_same]
      exact fun x _ => Reads.toV x.1)
    (by
      intro hb r hr
      obtain ⟨x, hx, rfl⟩ := List.mem_map.1 hr
      exact owned hb x hx)
    ((outs.map RecordOpening.toV).flatMap (outputMsgV ad.policy.reveal_map.toScalar))
  have hoo := openOutputs_seen ad agree (ros := outs) (os := outs.map RecordOpening.toV)
    (by
      rw [List.forall₂_map_right_iff, List.forall₂_same]
      exact fun x _ => Reads.toV x)
  have hlen := pretended_length (ad := ad) (outs := outs) attrs
  rw [hreal] at hoi
  unfold ViewerKeyPair.openTransferViewingMemo
  rw [if_neg (by simp [viewer]), hi, ho, memo, decrypt_encrypt]
  simp only [usizePred, bind, Except.bind]
  rw [if_neg]
  · simp only [List.length_map, pretendedInputs] at hoi hoo
    simp only [pretended, ne_eq, not_true_eq_false, if_false, pretendedInputs, hoi, hoo]
    rw [List.map_map, List.zipWith_map]
    congr 2
    apply List.ext_getElem <;> simp
  · rw [hlen, memoExpectedLen, if_neg (by omega)]
    simp only [VIEWABLE_DATA_LEN, REVEAL_MAP_LEN, ATTRS_LEN]
    omega

/-- **Negation 1: transfers.**  Take any accepted transfer of an asset that has no viewer (such as the native one), or of at
most the threshold of an asset that has one.  The same records can be spent and created by an accepted transfer whose memo
shows the viewer of *any* asset `ad` whatever the author likes: any spent records `ins` and any created records `outs` of
`ad`, though no record of `ad` is touched. -/
theorem C65_false (complete : SnarkComplete) {a c : ℕ} {d : Fin 256} {pk : TransferProvingKey}
    {vk : TransferVerifyingKey} (keys : transferPreprocess a c d = .ok (pk, vk)) (ha : a < 2 ^ 64) (hc : c < 2 ^ 64)
    {n : TransferNote} {w : TransferWit} (h : OpensTransfer a c d.val n w) {root : F} {t : U64}
    (ok : n.verify vk root t = .ok ()) {pol : AssetPolicy} (policy : w.policy = pol.toV)
    (free : pol.viewer_pk = 0 ∨ w.asset_code ≠ nativeCode ∧
      (w.outputs.tail.map (·.amount.val)).sum ≤ pol.reveal_threshold.val ∧
      pol.reveal_threshold.val - (w.outputs.tail.map (·.amount.val)).sum < 2 ^ 127)
    {ad : AssetDefinition} {ins : List (RecordOpening × List F)} {outs : List RecordOpening}
    (attrs : ∀ x ∈ ins, x.2.length = 8) (real : ∀ x ∈ ins, x.1.asset_def.code ≠ dummyCode)
    (owned : ad.policy.reveal_map[0] = true → ∀ x ∈ ins, x.1.pub_key.address ≠ 0)
    (agree : ad.policy.reveal_map[0] = ad.policy.reveal_map[1]) (hi : ins.length + 1 = a) (ho : outs.length + 1 = c)
    {k : ViewerKeyPair} (viewer : k.pubKey = ad.policy.viewer_pk) :
    ∃ n' : TransferNote, n'.inputs_nullifiers = n.inputs_nullifiers ∧ n'.output_commitments = n.output_commitments ∧
      n'.aux_info = n.aux_info ∧ OpensTransfer a c d.val n' w ∧ n'.verify vk root t = .ok () ∧
      ∀ b, k.openTransferViewingMemo b ad n' =
        .ok (ins.map (fun x => viewInput ad x.1 x.2), outs.map (viewOutput ad)) := by
  obtain ⟨v1, v2, -⟩ := TransferNote.verify_ok.1 ok
  let memo := viewerEncrypt k.pubKey 0 (pretended ad ins outs)
  have hml : memo.toV.data.length = (a - 1) * VIEWABLE_DATA_LEN + (c - 1) * 4 + 1 := by
    show (applyStream _ _ _).length = _
    rw [applyStream_length, pretended_length attrs]
    simp only [VIEWABLE_DATA_LEN, REVEAL_MAP_LEN, ATTRS_LEN]
    omega
  have hsat := h.sat
  have hshape : TransferShape a c d.val w ({ n.pub with viewing_memo := memo } : TransferPublicInput).toV :=
    ⟨h.shape.inputs_len, h.shape.outputs_len, h.shape.nullifiers_len, h.shape.commitments_len, h.shape.path_len, hml⟩
  have hsat : TransferSat w ({ n.pub with viewing_memo := memo } : TransferPublicInput).toV := by
    refine ⟨h.sat.inputs, h.sat.outputs, h.sat.balance, h.sat.map_range, h.sat.rand_ok, ?_, Or.inl ?_⟩
    · rw [← h.sat.memo_len]
      exact hml.trans h.shape.memo_len.symm
    · rcases free with f | ⟨f1, f2⟩
      · right
        rw [policy]
        exact (isDummyViewingPk_host _).2 f
      · left
        rw [underLimit_outputs h hc (t := pol.reveal_threshold) (by rw [policy]; rfl) f1]
        exact f2
  obtain ⟨-, -, x, hx⟩ := transferPreprocess_key keys
  obtain ⟨π, -, hv⟩ := complete _ _ _ hx (.transfer w _) hshape hsat
    (E.verKeyBytes n.aux_info.txn_memo_ver_key ++ n.aux_info.extra_proof_bound_data) 0
  have n1 : n.inputs_nullifiers.length = ins.length + 1 := h.shape.nullifiers_len.trans hi.symm
  have n2 : n.output_commitments.length = outs.length + 1 := h.shape.commitments_len.trans ho.symm
  refine ⟨{ n with proof := π, viewing_memo := memo }, rfl, rfl, rfl, ⟨hshape, hsat⟩,
    TransferNote.verify_ok.2 ⟨v1, v2, hv⟩, fun b => ?_⟩
  exact pretended_open b attrs real owned agree viewer n1 n2 (by omega) (by omega) 0 rfl

/-- in particular every native transfer the library makes has such a twin -/
theorem C65_native_false (complete : SnarkComplete) {a c : ℕ} {d : Fin 256} {pk : TransferProvingKey}
    {vk : TransferVerifyingKey} (keys : transferPreprocess a c d = .ok (pk, vk)) (ha : a < 2 ^ 64) (hc : c < 2 ^ 64)
    {build : Build} {rng : TransferRand} {inputs : List TransferNoteInput} {outputs : List RecordOpening} {valid_until : U64}
    {extra : List Byte} {n : TransferNote} {sk : Fr}
    (gen : TransferNote.generate build rng inputs outputs pk valid_until extra = .ok (n, sk))
    (native : ∀ o ∈ outputs, o.asset_def = AssetDefinition.native) (some_out : outputs.tail ≠ [])
    {ad : AssetDefinition} {ins : List (RecordOpening × List F)} {outs : List RecordOpening}
    (attrs : ∀ x ∈ ins, x.2.length = 8) (real : ∀ x ∈ ins, x.1.asset_def.code ≠ dummyCode)
    (owned : ad.policy.reveal_map[0] = true → ∀ x ∈ ins, x.1.pub_key.address ≠ 0)
    (agree : ad.policy.reveal_map[0] = ad.policy.reveal_map[1]) (hi : ins.length + 1 = a) (ho : outs.length + 1 = c)
    {k : ViewerKeyPair} (viewer : k.pubKey = ad.policy.viewer_pk) :
    ∃ n' : TransferNote, n'.inputs_nullifiers = n.inputs_nullifiers ∧
      n'.output_commitments = outputs.map (·.commitment) ∧
      (∀ t ≤ valid_until, n'.verify vk n'.aux_info.merkle_root t = .ok ()) ∧
      ∀ b, k.openTransferViewingMemo b ad n' =
        .ok (ins.map (fun x => viewInput ad x.1 x.2), outs.map (viewOutput ad)) := by
  obtain ⟨w, hw, -, h2, -⟩ := transfer_generated gen
  obtain ⟨e1, e2⟩ := C17_generate keys complete gen
  obtain ⟨-, k1, k2, k3⟩ := transferPreprocess_ok keys
  rw [k1, k2, k3] at hw
  obtain ⟨i0, is, o0, os, nl, nls, cm, cs, hp⟩ := hw.sat.parts hw.shape
  obtain ⟨x, xs, hos⟩ : ∃ x xs, os = x :: xs := by
    apply List.exists_cons_of_ne_nil
    rintro rfl
    apply some_out
    rw [hp.outputs] at h2
    cases outputs with
    | nil => rfl
    | cons y ys =>
      cases ys with
      | nil => rfl
      | cons z zs => simp at h2
  have hx : x ∈ w.toV.outputs := by rw [hp.outputs, hos]; simp
  rw [h2] at hx
  obtain ⟨o, ho1, rfl⟩ := List.mem_map.1 hx
  have hpol := (hp.map_in hw.sat).2.2.2 o.toV (by rw [hos]; simp)
  have policy : w.toV.policy = AssetPolicy.default.toV := by
    rw [← hpol]
    exact (native_toV (native o ho1)).2
  obtain ⟨n', q1, q2, q3, q4, q5, q6⟩ := C65_false complete keys ha hc hw (e2 valid_until le_rfl) policy (Or.inl rfl)
    attrs real owned agree hi ho viewer
  have hcm : n.output_commitments = outputs.map (·.commitment) := (transfer_commitments gen)
  refine ⟨n', q1, q2.trans hcm, fun t ht => ?_, q6⟩
  obtain ⟨v1, v2, v3⟩ := TransferNote.verify_ok.1 q5
  refine TransferNote.verify_ok.2 ⟨rfl, ?_, v3⟩
  rw [q3, e1]
  exact ht

/-- **Negation 2: mints.**  The same for mints: whoever mints an asset whose policy names no viewer can show to any viewer,
who does not learn from opening the memo that it was not meant for them, any owner and any blinding factor. -/
theorem C65_mint_false (complete : SnarkComplete) {d : Fin 256} {pk : MintProvingKey} {vk : MintVerifyingKey}
    (keys : mintPreprocess d = .ok (pk, vk)) {n : MintNote} {w : MintWit} (h : OpensMint d.val n w) {root : F}
    (ok : n.verify vk root = .ok ()) (free : n.mint_asset_def.policy.viewer_pk = 0)
    (reveals : n.mint_asset_def.policy.reveal_map[0] = true) (k : ViewerKeyPair) (owner : Pt) (blind : F) :
    ∃ n' : MintNote, n'.mint_asset_def = n.mint_asset_def ∧ n'.mint_amount = n.mint_amount ∧ n'.mint_comm = n.mint_comm ∧
      n'.input_nullifier = n.input_nullifier ∧ n'.chg_comm = n.chg_comm ∧ n'.aux_info = n.aux_info ∧
      OpensMint d.val n' w ∧ n'.verify vk root = .ok () ∧
      k.openMintViewingMemo n' = .ok
        { asset_code := n.mint_asset_def.code, user_address := some owner,
          amount := if n.mint_asset_def.policy.reveal_map[2] then some n.mint_amount else none,
          blinding_factor := if n.mint_asset_def.policy.reveal_map[3] then some blind else none, attributes := [] } := by
  obtain ⟨v1, v2, -⟩ := MintNote.verify_ok.1 ok
  let memo := viewerEncrypt k.pubKey 0 [ptX owner, ptY owner, blind]
  have hshape : MintShape d.val w ({ n.pub with viewing_memo := memo } : MintPublicInput).toV := ⟨h.shape.path_len, rfl⟩
  have hsat : MintSat w ({ n.pub with viewing_memo := memo } : MintPublicInput).toV :=
    { h.sat with
      memo_len := rfl
      memo := Or.inl ((isDummyViewingPk_host _).2 free) }
  obtain ⟨x, hx⟩ := mintPreprocess_key keys
  obtain ⟨π, -, hv⟩ := complete _ _ _ hx (.mint w _) hshape hsat (E.verKeyBytes n.aux_info.txn_memo_ver_key) 0
  refine ⟨{ n with proof := π, viewing_memo := memo }, rfl, rfl, rfl, rfl, rfl, rfl, ⟨hshape, hsat⟩,
    MintNote.verify_ok.2 ⟨v1, v2, hv⟩, ?_⟩
  have hdec : k.decrypt memo = [ptX owner, ptY owner, blind] := decrypt_encrypt k 0 _
  unfold ViewerKeyPair.openMintViewingMemo
  dsimp only
  rw [hdec]
  simp only [List.length_cons, List.length_nil, Nat.zero_add, Nat.reduceAdd, ne_eq, not_true_eq_false, if_false,
    ViewableData.fromMintNote, fetchAddress_pt, reveals, true_or, if_true]
  rfl

end Cap

namespace Cap.Examples
open Toy Spec

/-- the example transfer moves 50 units of an asset with threshold 10, and its viewer is shown what it did -/
example : ∃ (w : TransferWit) (vins vouts : List ViewableData), OpensTransfer 3 3 1 xfrNote w ∧
    w.outputs = xfrOutputs.map RecordOpening.toV ∧
    viewer.openTransferViewingMemo .debug asset xfrNote = .ok (vins, vouts) ∧ vouts.length = 2 ∧ vins.length = 1 ∧
    List.Forall₂ (ShowsOutput asset) vouts w.outputs.tail ∧
    List.Forall₂ (ShowsInput asset) vins (shownInputs asset w.inputs.tail) := by
  obtain ⟨w, h, h1, h2, h3⟩ := xfr_opens
  have code : w.toV.asset_code = asset.code := by rw [← h3]; rfl
  have policy : w.toV.policy = asset.policy.toV := by rw [← h3]; rfl
  have hop : viewer.openTransferViewingMemo .debug asset xfrNote =
    .ok ([⟨asset.code, some alice.address, some 50, some 32, [none, some 2, none, none, none, none, none, none]⟩],
      [⟨asset.code, some bob.address, some 20, some 42, List.replicate 8 none⟩,
       ⟨asset.code, some alice.address, some 30, some 43, List.replicate 8 none⟩]) := by decide +kernel
  have := C65_partial .debug h (by norm_num) code policy (by decide +kernel) (by decide +kernel)
    (by decide +kernel) (by rw [h2]; decide +kernel) hop
  exact ⟨w.toV, _, _, h, h2, hop, rfl, rfl, this⟩

/-- the hypotheses of the theorem about accepted notes, for the record that Bob gets -/
example : transferPreprocess 3 3 1 = .ok (xfrPk, xfrVk) ∧ xfrNote.verify xfrVk xfrNote.aux_info.merkle_root 5 = .ok () ∧
    xfrNote.output_commitments.tail[0]? = some outBob.commitment ∧ outBob.asset_def.code ≠ nativeCode ∧
    outBob.asset_def.policy.viewer_pk ≠ 0 :=
  ⟨xfrKeys_eq, xfrNote_verify 5 (by decide), by decide +kernel, by decide +kernel, by decide +kernel⟩

/-- and about mints -/
example : mintNote.verify mintVk mintNote.aux_info.merkle_root = .ok () ∧
    viewer.pubKey = mintNote.mint_asset_def.policy.viewer_pk ∧ mintNote.mint_asset_def.policy.viewer_pk ≠ 0 ∧
    ∃ v, viewer.openMintViewingMemo mintNote = .ok v ∧ v.user_address = some bob.address := by
  refine ⟨mintNote_verify, by decide +kernel, by decide +kernel,
    ⟨asset.code, some bob.address, some 1000, some 44, []⟩, by decide +kernel, rfl⟩

/-- Alice pays 60 native units to Bob; the viewer of the asset is shown a million units of the asset, sent by the freezer's
address to Bob. -/
example : ∃ n : TransferNote, n.output_commitments =
      [RecordOpening.commitment ⟨37, AssetDefinition.native, alice.pubKey, .unfrozen, 46⟩,
        RecordOpening.commitment ⟨60, AssetDefinition.native, bob.pubKey, .unfrozen, 45⟩] ∧
    n.verify natVk n.aux_info.merkle_root 5 = .ok () ∧
    viewer.openTransferViewingMemo .release asset n = .ok
      ([⟨asset.code, some freezer.pub_key, some 1000000, some 1, [none, some 0, none, none, none, none, none, none]⟩],
       [⟨asset.code, some bob.address, some 1000000, some 2, List.replicate 8 none⟩]) := by
  have gen : isOk (TransferNote.generate .debug rng natInputs
      [⟨37, AssetDefinition.native, alice.pubKey, .unfrozen, 46⟩, ⟨60, AssetDefinition.native, bob.pubKey, .unfrozen, 45⟩]
      natPk 800 []) = true := by decide +kernel
  obtain ⟨n', -, q2, q3, q4⟩ := C65_native_false Toy.complete natKeys_eq (by norm_num) (by norm_num) (okVal_eq2 _ gen)
    (by simp) (by simp) (ad := asset)
    (ins := [(⟨1000000, asset, ⟨freezer.pub_key, bob.pubKey.enc_key⟩, .unfrozen, 1⟩, List.replicate 8 0)])
    (outs := [⟨1000000, asset, bob.pubKey, .unfrozen, 2⟩]) (by simp)
    (by intro x hx; obtain rfl := List.mem_singleton.1 hx; decide +kernel)
    (by intro _ x hx; obtain rfl := List.mem_singleton.1 hx; decide +kernel) (by decide +kernel) rfl rfl (k := viewer) rfl
  refine ⟨n', q2, q3 5 (by decide), ?_⟩
  rw [q4]
  decide +kernel

/-- an asset whose policy names no viewer -/
def openAsset : AssetDefinition := ⟨asset.code, { policy with viewer_pk := 0 }⟩

/-- Alice mints 1000 units of it for Bob, and shows the viewer of another asset that they went to Alice. -/
example : ∃ n : MintNote, n.mint_comm = RecordOpening.commitment ⟨1000, openAsset, bob.pubKey, .unfrozen, 44⟩ ∧
    n.verify mintVk n.aux_info.merkle_root = .ok () ∧
    viewer.openMintViewingMemo n = .ok ⟨openAsset.code, some alice.address, some 1000, some 9, []⟩ := by
  have gen : isOk (MintNote.generate rng ⟨1000, openAsset, bob.pubKey, .unfrozen, 44⟩ seed desc feeInfo mintPk) = true := by
    decide +kernel
  have hg := okVal_eq2 _ gen
  have f := C18_fields hg
  obtain ⟨n', q1, q2, q3, -, -, q6, -, q8, q9⟩ := C65_mint_false Toy.complete mintKeys_eq
    (mint_generated hg (by decide)) (C18_generate mintKeys_eq Toy.complete hg (by decide))
    (by rw [f.2.1]; rfl) (by rw [f.2.1]; decide +kernel) viewer alice.address (9 : ZMod p)
  refine ⟨n', q3.trans f.2.2.1, by rw [q6]; exact q8, ?_⟩
  rw [q9, f.1, f.2.1]
  rfl

end Cap.Examples
