/-
C26: a note never spends the same record twice within itself.

status: partial
note: TRUE of generated notes (C26_transfer_generated, C26_mint, C26_freeze_generated). FALSE of accepted notes: neither verify nor the circuits compare nullifiers with each other. C26_transfer_false: for every instantiation and every native record, an accepted note spends the record twice and creates two records of its amount (value is doubled unless the ledger compares the nullifiers of a note). C26_freeze_false: an accepted freeze note turns one record into two. C26_transfer_partial, C26_freeze_partial: a repeated nullifier in an accepted note means that the same commitment at the same position was opened twice, or the PRF collides on named inputs; so comparing nullifiers within a note is exactly the missing check.
-/
import Verif.Lemmas.ForgeMintFreeze
import Verif.Lemmas.Spends
import Verif.Lemmas.Complete
import Verif.Props.C19

namespace Cap

open Spec

variable [E : CapEnv] [S : CapExt]

/-! ### Generated notes -/

/-- **Generated transfers** have pairwise distinct nullifiers. -/
theorem C26_transfer_generated {b : Build} {rng : TransferRand} {inputs : List TransferNoteInput}
    {outputs : List RecordOpening} {pk : TransferProvingKey} {valid_until : U64} {extra : List Byte}
    {n : TransferNote} {sk : Fr} (gen : TransferNote.generate b rng inputs outputs pk valid_until extra = .ok (n, sk)) :
    n.inputs_nullifiers.Nodup := by
  obtain ⟨w, pub, h⟩ := TransferNote.generate_ok.1 gen
  rw [h.nullifiers]
  exact checkDistinct_ok.1 h.distinct

/-- **Mint notes** have one nullifier. -/
theorem C26_mint (n : MintNote) : (TransactionNote.mint n).nullifiers.Nodup := List.nodup_singleton _

/-- **Generated freeze notes** have pairwise distinct nullifiers. -/
theorem C26_freeze_generated {rng : FreezeRand} {inputs : List FreezeNoteInput} {fee : TxnFeeInfo}
    {pk : FreezeProvingKey} {n : FreezeNote} {sk : Fr} {outs : List RecordOpening}
    (gen : FreezeNote.generate rng inputs fee pk = .ok (n, sk, outs)) : n.input_nullifiers.Nodup :=
  checkDistinct_ok.1 (FreezeNote.generate_ok.1 gen).distinct

/-! ### Accepted notes: negations -/

/-- **Negation, transfers.**  Take any unfrozen native record.  Its owner can make an accepted note that spends it
twice, with the same nullifier in both places, and creates two records of its amount, both for themselves. -/
theorem C26_transfer_false (complete : SnarkComplete) {d : Fin 256}
    {pk : TransferProvingKey} {vk : TransferVerifyingKey} (keys : transferPreprocess 2 2 d = .ok (pk, vk))
    {ro : RecordOpening} {k : UserKeyPair}
    (asset : ro.asset_def = AssetDefinition.native) (unfrozen : ro.freeze_flag = .unfrozen)
    (owner : ro.pub_key.address = k.address) (small : ro.amount.val < 2 ^ 127) :
    ∃ n w nf, OpensTransfer 2 2 d.val n w ∧ (∀ t, n.verify vk n.aux_info.merkle_root t = .ok ()) ∧
      n.inputs_nullifiers = [nf, nf] ∧ ¬ n.inputs_nullifiers.Nodup ∧ n.aux_info.fee = 0 ∧
      w.inputs.map (·.ro) = [ro.toV, ro.toV] ∧ w.outputs = [ro.toV, ro.toV] := by
  let f : Forgery :=
    { r0 := ro.toV, r1 := ro.toV, sk0 := frToFq k.sk, sk1 := frToFq k.sk, acc0 := ⟨0, edge d.val⟩,
      acc1 := ⟨0, edge d.val⟩, cred1 := selfCred ((Fin.last _ : U64).val : F), o0 := ro.toV, o1 := ro.toV,
      code := nativeCode, policy := AssetPolicy.default.toV, root := spendRoot ro.toV ⟨0, edge d.val⟩, fee := 0,
      valid_until := Fin.last _ }
  have hu : ro.toV.freeze_flag = false := FreezeFlag.toBool_eq_false.2 unfrozen
  have hs : SpendOk ro.toV (frToFq k.sk) .user := (SpendOk_user_host _ _).2 owner
  have hr : ro.toV.amount.val < 2 ^ 127 := by rw [RecordOpening.toV, Amount.toF_val]; exact small
  obtain ⟨hc, hp⟩ := native_toV asset
  have hok : f.Ok d.val :=
    { r0_unfrozen := hu, r0_code := hc, r0_policy := hp, r0_spend := hs, r0_root := rfl, r1_unfrozen := hu
      r1_kind := Or.inl ⟨by rw [show f.r1.asset_code = nativeCode from hc]; exact native_ne_dummy, hp, rfl⟩
      r1_spend := hs, path0 := Forgery.edge_length _, path1 := Forgery.edge_length _
      attrs := (Forgery.selfCred_ok _).1, expiry := (Forgery.selfCred_ok _).2, sig := Or.inr (selfCred_valid _)
      o0_unfrozen := hu, o0_code := hc, o0_policy := hp, o0_range := hr
      o1_unfrozen := hu, o1_code := hc, o1_policy := hp, o1_range := hr
      no_viewer := Or.inl ((isDummyViewingPk_host AssetPolicy.default).2 rfl)
      map := by
        show (RevealMap.toScalar _).val < _
        rw [RevealMap.toScalar_val]; exact RevealMap.toNat_lt _
      balance := ⟨fun h => absurd rfl h, fun _ => by
        show ro.toV.amount + ro.toV.amount = ro.toV.amount + ro.toV.amount + Amount.toF 0
        rw [Amount.toF_zero, add_zero]⟩ }
  obtain ⟨π, ho, hv⟩ := Forgery.accepted complete keys f hok
  exact ⟨_, _, _, ho, fun t => hv t (Fin.le_last t), rfl, by simp [Forgery.note, f], rfl, rfl, rfl⟩

/-- **Negation, freezes.**  Take any unfrozen record with a freezer.  The freezer, with a native record to pay the fee,
can make an accepted note that freezes it twice, with the same nullifier in both places: one record becomes two. -/
theorem C26_freeze_false (complete : SnarkComplete) {d : Fin 256} (hd : d.val ≠ 0) {pk : FreezeProvingKey}
    {vk : FreezeVerifyingKey} (keys : freezePreprocess 3 d = .ok (pk, vk)) {fee_ro ro : RecordOpening}
    {k : UserKeyPair} {s : Fr} (fee_asset : fee_ro.asset_def = AssetDefinition.native)
    (fee_unfrozen : fee_ro.freeze_flag = .unfrozen) (fee_owner : fee_ro.pub_key.address = k.address)
    (ro_unfrozen : ro.freeze_flag = .unfrozen) (ro_freezer : ro.asset_def.policy.freezer_pk = smulFr s E.gen)
    (set : ro.asset_def.policy.freezer_pk ≠ 0) :
    ∃ n w nf0 nf, OpensFreeze 3 d.val n w ∧ n.verify vk n.aux_info.merkle_root = .ok () ∧
      n.input_nullifiers = [nf0, nf, nf] ∧ ¬ n.input_nullifiers.Nodup ∧ w.inputs.map (·.ro) = [ro.toV, ro.toV] ∧
      w.inputs.map (·.out) = List.replicate 2 { ro with freeze_flag := .frozen }.toV := by
  obtain ⟨e, he⟩ : ∃ e, d.val = e + 1 := ⟨d.val - 1, by omega⟩
  let i : FreezeInputV := ⟨ro.toV, accRight fee_ro.commitment e, frToFq s, { ro with freeze_flag := .frozen }.toV⟩
  have hroot : spendRoot fee_ro.toV (accLeft ro.commitment e) = pairRoot fee_ro.commitment ro.commitment e := by
    rw [accLeft_root, RecordOpening.toV_commitment]
  have hi : FreezeForgeOk (spendRoot fee_ro.toV (accLeft ro.commitment e)) d.val i := by
    refine ⟨⟨?_, rfl, rfl, rfl, PolicyV.enforceEqual_iff.2 rfl⟩, Or.inl ?_, (SpendOk_freezer_host _ _).2 ro_freezer,
      Or.inl ?_, by simp [i, accRight, Forgery.edge_length, he]⟩
    · show boolF ro.freeze_flag.toBool + boolF true = 1
      rw [ro_unfrozen]
      simp [boolF, FreezeFlag.toBool]
    · simpa [i, PolicyV.isDummyFreezerPk, RecordOpening.toV, AssetPolicy.toV, xy_eq_neutral] using set
    · rw [hroot]
      show spendRoot ro.toV (accRight fee_ro.commitment e) = _
      rw [accRight_root, RecordOpening.toV_commitment]
  obtain ⟨π, ho, hv⟩ := freeze_forge (inputs := [i, i]) complete keys (fee_ro := fee_ro) (k := k) (fee := 0)
    (acc := accLeft ro.commitment e) fee_asset fee_unfrozen fee_owner
    (by simp [accLeft, Forgery.edge_length, he])
    (by
      intro j hj
      rcases List.mem_cons.1 hj with rfl | hj
      · exact hi
      · rw [List.mem_singleton.1 hj]; exact hi)
  exact ⟨_, _, _, _, ho, hv, rfl, by simp [freezeForgeNote], rfl, rfl⟩

/-! ### Accepted notes: what a repeated nullifier means -/

omit S in
theorem repeated_spend {l : List Spend} {i j : ℕ} {s t : Spend} {nf : F} (hs : l[i]? = some s) (ht : l[j]? = some t)
    (hi : (l.map Spend.nullifier)[i]? = some nf) (hj : (l.map Spend.nullifier)[j]? = some nf) :
    (s.acc.uid = t.acc.uid ∧ s.ro.commitment = t.ro.commitment) ∨
      Collides (fun x : F × List F => E.prf x.1 x.2)
        (deriveNullifierKeyV s.sk (spendOtherPk s.ro s.who), [s.acc.uid, s.ro.commitment])
        (deriveNullifierKeyV t.sk (spendOtherPk t.ro t.who), [t.acc.uid, t.ro.commitment]) := by
  rw [List.getElem?_map, hs, Option.map_some, Option.some.injEq] at hi
  rw [List.getElem?_map, ht, Option.map_some, Option.some.injEq] at hj
  by_cases h : s.acc.uid = t.acc.uid ∧ s.ro.commitment = t.ro.commitment
  · exact Or.inl h
  · refine Or.inr ⟨fun he => h ?_, hi.trans hj.symm⟩
    simp only [Prod.mk.injEq, List.cons.injEq] at he
    exact ⟨he.2.1, he.2.2.1⟩

/-- **Transfers.**  If an accepted transfer has the same nullifier in the places `i` and `j`, the records opened in
these places have the same commitment at the same position of the tree, or the PRF collides. -/
theorem C26_transfer_partial {a b d : ℕ} {n : TransferNote} {w : TransferWit} (h : OpensTransfer a b d n w) {i j : ℕ}
    {nf : F} (hi : n.inputs_nullifiers[i]? = some nf) (hj : n.inputs_nullifiers[j]? = some nf) :
    ∃ x y, w.inputs[i]? = some x ∧ w.inputs[j]? = some y ∧
      ((x.acc.uid = y.acc.uid ∧ x.ro.commitment = y.ro.commitment) ∨
        Collides (fun z : F × List F => E.prf z.1 z.2)
          (deriveNullifierKeyV x.addr_secret x.ro.policy.freezer_pk, [x.acc.uid, x.ro.commitment])
          (deriveNullifierKeyV y.addr_secret y.ro.policy.freezer_pk, [y.acc.uid, y.ro.commitment])) := by
  obtain ⟨hn, -⟩ := transfer_spends h
  rw [hn] at hi hj
  have get : ∀ {i : ℕ}, (w.spends.map Spend.nullifier)[i]? = some nf → ∃ x, w.inputs[i]? = some x := by
    intro i hi
    obtain ⟨hl, -⟩ := List.getElem?_eq_some_iff.1 hi
    simp only [TransferWit.spends, List.length_map] at hl
    exact ⟨_, List.getElem?_eq_getElem hl⟩
  obtain ⟨x, hx⟩ := get hi
  obtain ⟨y, hy⟩ := get hj
  refine ⟨x, y, hx, hy, ?_⟩
  exact repeated_spend (l := w.spends) (s := ⟨x.ro, x.acc, x.addr_secret, .user⟩)
    (t := ⟨y.ro, y.acc, y.addr_secret, .user⟩) (by simp [TransferWit.spends, hx]) (by simp [TransferWit.spends, hy]) hi hj

/-- **Freezes.** -/
theorem C26_freeze_partial {m d : ℕ} {n : FreezeNote} {w : FreezeWit} (h : OpensFreeze m d n w) {i j : ℕ}
    {nf : F} (hi : n.input_nullifiers[i]? = some nf) (hj : n.input_nullifiers[j]? = some nf) :
    ∃ x y, w.spends[i]? = some x ∧ w.spends[j]? = some y ∧
      ((x.acc.uid = y.acc.uid ∧ x.ro.commitment = y.ro.commitment) ∨
        Collides (fun z : F × List F => E.prf z.1 z.2)
          (deriveNullifierKeyV x.sk (spendOtherPk x.ro x.who), [x.acc.uid, x.ro.commitment])
          (deriveNullifierKeyV y.sk (spendOtherPk y.ro y.who), [y.acc.uid, y.ro.commitment])) := by
  obtain ⟨hn, -⟩ := freeze_spends h
  rw [hn] at hi hj
  have get : ∀ {i : ℕ}, (w.spends.map Spend.nullifier)[i]? = some nf → ∃ x, w.spends[i]? = some x := by
    intro i hi
    obtain ⟨hl, -⟩ := List.getElem?_eq_some_iff.1 hi
    rw [List.length_map] at hl
    exact ⟨_, List.getElem?_eq_getElem hl⟩
  obtain ⟨x, hx⟩ := get hi
  obtain ⟨y, hy⟩ := get hj
  exact ⟨x, y, hx, hy, repeated_spend hx hy hi hj⟩

end Cap

namespace Cap.Examples
open Toy Spec

/-- the example transfer and freeze are generated -/
example : ∃ n sk, TransferNote.generate .release rng xfrInputs xfrOutputs xfrPk 900 [1, 2, 3] = .ok (n, sk) ∧
    n.inputs_nullifiers.length = 3 := ⟨_, _, xfrNote_eq, by decide +kernel⟩
example : ∃ n sk, FreezeNote.generate frzRng frzInputs feeInfo frzPk = .ok (n, sk, frzOuts) ∧
    n.input_nullifiers.length = 4 := ⟨_, _, frzNote_eq, by decide +kernel⟩

/-- the check in `generate` matters: the example transfer with its second input twice is refused -/
example : (TransferNote.generate .release rng (xfrInputs.take 2 ++ [(xfrInputs.take 2).getLast (by decide +kernel)])
    [chgRec, { outBob with amount := 50 }, { outAlice with amount := 50 }] xfrPk 900 [] matches
      .error .invalidParameter) = true := by
  decide +kernel

/-- `C26_transfer_false` in the toy instantiation: a record of 100 becomes two of 100 -/
example : ∃ pk vk n w nf, transferPreprocess 2 2 1 = .ok (pk, vk) ∧ OpensTransfer 2 2 1 n w ∧
    n.inputs_nullifiers = [nf, nf] ∧ (w.inputs.map (·.ro.amount)) = [100, 100] ∧ n.verify vk n.aux_info.merkle_root 5 = .ok () := by
  obtain ⟨n, w, nf, h, hv, hn, -, -, hi, -⟩ := C26_transfer_false Toy.complete natKeys_eq (ro := feeRec) (k := alice)
    rfl rfl rfl (by decide +kernel)
  refine ⟨_, _, n, w, nf, natKeys_eq, h, hn, ?_, hv 5⟩
  have := congrArg (List.map fun r : RecordV => r.amount) hi
  rw [List.map_map] at this
  exact this.trans (by decide +kernel)

/-- the hypotheses of `C26_freeze_false` are met by the frozen example record before it was frozen -/
example : ∃ ro : RecordOpening, ro.freeze_flag = .unfrozen ∧ ro.amount = 50 ∧
    ro.asset_def.policy.freezer_pk = smulFr freezer.sec_key E.gen ∧ ro.asset_def.policy.freezer_pk ≠ 0 :=
  ⟨assetRec, rfl, rfl, rfl, by decide +kernel⟩

/-- the hypotheses of `C26_transfer_partial` are met, with two different places, by a forged note; those of
`C26_freeze_partial` by a forged freeze note -/
example : ∃ n w nf, OpensTransfer 2 2 1 n w ∧ n.inputs_nullifiers[0]? = some nf ∧ n.inputs_nullifiers[1]? = some nf := by
  obtain ⟨n, w, nf, h, -, hn, -⟩ := C26_transfer_false Toy.complete natKeys_eq (ro := feeRec) (k := alice)
    rfl rfl rfl (by decide +kernel)
  exact ⟨n, w, nf, h, by rw [hn]; rfl, by rw [hn]; rfl⟩
example {pk : FreezeProvingKey} {vk : FreezeVerifyingKey} (keys : freezePreprocess 3 1 = .ok (pk, vk)) :
    ∃ n w nf, OpensFreeze 3 1 n w ∧ n.input_nullifiers[1]? = some nf ∧ n.input_nullifiers[2]? = some nf := by
  obtain ⟨n, w, nf0, nf, h, -, hn, -⟩ := C26_freeze_false Toy.complete (by decide) keys (fee_ro := feeRec)
    (ro := assetRec) (k := alice) (s := freezer.sec_key) rfl rfl rfl rfl rfl (by decide +kernel)
  exact ⟨n, w, nf, h, by rw [hn]; rfl, by rw [hn]; rfl⟩

end Cap.Examples
