/-
C07: only the policy's freezer can freeze or release a record.

status: proved
note: For every satisfying assignment of the freeze circuit: each input that is not a dummy has a policy that names a freezer, the assignment contains a scalar whose public key is that freezer key, and the record is under the note's root. C07_records says it for the record opening with the same committed values; C07_accepted is end to end from FreezeNote::verify, with the freezer's secret key reduced to a scalar of the curve; C07_generated for FreezeNote::generate.
-/
import Verif.Lemmas.Opened
import Verif.Props.C19

namespace Cap

open Spec

variable [E : CapEnv] [S : CapExt]

/-- the inputs of an opened freeze note with their nullifiers -/
theorem freeze_inputs {m d : ℕ} {n : FreezeNote} {w : FreezeWit} (h : OpensFreeze m d n w) :
    ∀ i ∈ w.inputs, (i.ro.policy.isDummyFreezerPk = false ∨ i.ro.isDummy = true) ∧ SpendOk i.ro i.sk .freezer ∧
      (spendRoot i.ro i.acc = n.aux_info.merkle_root ∨ i.ro.isDummy = true) ∧
      spendNullifier i.ro i.acc i.sk .freezer ∈ n.input_nullifiers := by
  intro i hi
  obtain ⟨v, hv, hsh, hs⟩ := h
  have hv' : v.root = n.aux_info.merkle_root ∧ n.input_nullifiers = v.fee_nullifier :: v.nullifiers := by
    simp only [FreezePublicInput.toV, FreezeNote.pub] at hv
    split at hv
    · rename_i hns _
      cases hv
      exact ⟨rfl, hns⟩
    · cases hv
  obtain ⟨k, hk, rfl⟩ := List.mem_iff_getElem.1 hi
  have hl : w.inputs.length = v.nullifiers.length := by
    have := hsh.inputs_len; have := hsh.nullifiers_len; omega
  have hmem : (w.inputs[k], v.nullifiers[k]'(by omega)) ∈ w.inputs.zip v.nullifiers :=
    List.mem_iff_getElem.2 ⟨k, by simp; omega, by simp⟩
  obtain ⟨h1, h2, h3, h4⟩ := hs.spends _ hmem
  rw [hv'.1] at h3
  refine ⟨h1, h2, h3, ?_⟩
  rw [hv'.2, h4]
  exact List.mem_cons_of_mem _ (List.getElem_mem _)

/-- **Only the freezer.**  Every freezing input that is not a dummy has a policy with a freezer key, whose secret key is
in the assignment; its commitment is under the note's root. -/
theorem C07_freezer {m d : ℕ} {n : FreezeNote} {w : FreezeWit} (h : OpensFreeze m d n w) :
    ∀ i ∈ w.inputs, i.ro.asset_code ≠ dummyCode →
      i.ro.policy.freezer_pk ≠ neutral ∧ i.ro.policy.freezer_pk = E.xy (i.sk.val • E.gen) ∧
      merkleRoot i.acc.uid i.ro.commitment i.acc.path = n.aux_info.merkle_root := by
  intro i hi hd
  obtain ⟨h1, h2, h3, -⟩ := freeze_inputs h i hi
  have hd' : ¬ i.ro.isDummy = true := by simp [RecordV.isDummy, hd]
  refine ⟨?_, h2.2.symm, h3.resolve_right hd'⟩
  have := h1.resolve_right hd'
  simpa [PolicyV.isDummyFreezerPk] using this

/-- **Records.**  The freezer key of the record's own policy is not the identity, and the assignment contains its secret
key: the unique scalar whose public key it is. -/
theorem C07_records {m d : ℕ} {n : FreezeNote} {w : FreezeWit} (h : OpensFreeze m d n w) {i : FreezeInputV}
    (hi : i ∈ w.inputs) {ro : RecordOpening} (hr : Reads ro i.ro) (hd : ro.asset_def.code ≠ dummyCode) :
    ro.asset_def.policy.isFreezerPubKeySet = true ∧ ro.asset_def.policy.freezer_pk = smulFr (i.sk.val : Fr) E.gen ∧
      (∀ s : Fr, ro.asset_def.policy.freezer_pk = smulFr s E.gen → s = (i.sk.val : Fr)) := by
  obtain ⟨-, h2, -, -, -, h6, -⟩ := reads_iff.1 hr
  rw [h2] at hd
  obtain ⟨a, b, -⟩ := C07_freezer h i hi hd
  have e : ro.asset_def.policy.freezer_pk = smulFr (i.sk.val : Fr) E.gen := by
    rw [smulFr_natCast]
    exact xy_inj (h6.trans b)
  refine ⟨?_, e, fun s hs => smulFr_gen_inj (hs.symm.trans e)⟩
  rw [← h6, Ne, xy_eq_neutral] at a
  simpa [AssetPolicy.isFreezerPubKeySet] using a

/-- **End to end.**  Whoever makes an accepted freeze note knows, for each record it freezes or releases, the secret key
of the freezer in that record's policy.  If `ro` is the record in the ledger whose commitment is consumed, either this is
`ro`'s freezer or the commitment function collides on the two openings. -/
theorem C07_accepted (sound : SnarkSound) {m : ℕ} {d : Fin 256} {pk : FreezeProvingKey}
    {vk : FreezeVerifyingKey} (keys : freezePreprocess m d = .ok (pk, vk)) {n : FreezeNote} {root : F}
    (ok : n.verify vk root = .ok ()) (hn : n.input_nullifiers.length = m) :
    ∃ w, OpensFreeze m d.val n w ∧ ∀ i ∈ w.inputs, ∀ ro : RecordOpening, ro.asset_def.code ≠ dummyCode →
      ro.commitment = i.ro.commitment →
      (ro.asset_def.policy.isFreezerPubKeySet = true ∧
        ro.asset_def.policy.freezer_pk = smulFr (i.sk.val : Fr) E.gen) ∨
      Collides commitOf (ro.scalars, ro.blind) (i.ro.scalars, i.ro.blind) := by
  obtain ⟨w, h⟩ := freeze_opened sound keys ok hn
  refine ⟨w, h, fun i hi ro hd he => ?_⟩
  rcases reads_or_collides he with hr | hc
  · have := C07_records h hi hr hd
    exact Or.inl ⟨this.1, this.2.1⟩
  · exact Or.inr hc

omit S in
theorem freezeInputsV_getElem? : ∀ (k : ℕ) (a : List RecordOpening) (b : List AccMemberWitness)
    (c : List FreezerKeyPair) (d : List RecordOpening) {ro : RecordOpening} {acc : AccMemberWitness}
    {key : FreezerKeyPair} {o : RecordOpening}, a[k]? = some ro → b[k]? = some acc → c[k]? = some key →
    d[k]? = some o → (freezeInputsV a b c d)[k]? = some ⟨ro.toV, acc.toV, frToFq key.sec_key, o.toV⟩
  | 0, _ :: _, _ :: _, _ :: _, _ :: _, _, _, _, _, h1, h2, h3, h4 => by
    simp only [List.getElem?_cons_zero, Option.some.injEq] at h1 h2 h3 h4
    subst h1 h2 h3 h4
    rfl
  | k + 1, _ :: a, _ :: b, _ :: c, _ :: d, _, _, _, _, h1, h2, h3, h4 => by
    simp only [List.getElem?_cons_succ] at h1 h2 h3 h4
    simpa only [freezeInputsV, List.getElem?_cons_succ] using freezeInputsV_getElem? k a b c d h1 h2 h3 h4
  | _, [], _, _, _, _, _, _, _, h, _, _, _ => by simp at h
  | _, _ :: _, [], _, _, _, _, _, _, _, h, _, _ => by simp at h
  | _, _ :: _, _ :: _, [], _, _, _, _, _, _, _, h, _ => by simp at h
  | _, _ :: _, _ :: _, _ :: _, [], _, _, _, _, _, _, _, h => by simp at h

/-- **Generation** succeeds only with the freezer's key pair: for every record that is not a dummy, the secret key given
is the one of the policy's freezer key, which is set. -/
theorem C07_generated {rng : FreezeRand} {inputs : List FreezeNoteInput} {fee : TxnFeeInfo} {pk : FreezeProvingKey}
    {n : FreezeNote} {sk : Fr} {outs : List RecordOpening}
    (gen : FreezeNote.generate rng inputs fee pk = .ok (n, sk, outs)) :
    ∀ i ∈ inputs, i.ro.asset_def ≠ AssetDefinition.dummy →
      i.ro.asset_def.policy.isFreezerPubKeySet = true ∧
      i.ro.asset_def.policy.freezer_pk = smulFr i.keypair.sec_key E.gen := by
  intro i hi hd
  have h := FreezeNote.generate_ok.1 gen
  refine ⟨by simpa [AssetPolicy.isFreezerPubKeySet] using h.checks.policies i hi hd, ?_⟩
  obtain ⟨k, hk⟩ := List.mem_iff_getElem?.1 hi
  have hs := h.sat.1.spends
  obtain ⟨o, ho⟩ : ∃ o, (freezeGetOutputRos rng.blinds inputs)[k]? = some o := by
    rw [freezeGetOutputRos, List.getElem?_mapIdx, hk]
    exact ⟨_, rfl⟩
  have hx : (freezeWitV rng.blinds inputs fee).inputs[k]? = some ⟨i.ro.toV, i.acc.toV, frToFq i.keypair.sec_key, o.toV⟩ :=
    freezeInputsV_getElem? k _ _ _ _ (by simp [hk]) (by simp [hk]) (by simp [hk]) ho
  have hn : (freezePubV rng.blinds inputs fee).nullifiers[k]? = some (freezeNullifier i.keypair i.ro i.acc) := by
    simp [freezePubV, hk]
  have := hs (_, _) (List.mem_iff_getElem?.2 ⟨k, List.getElem?_zip_eq_some.2 ⟨hx, hn⟩⟩)
  exact (SpendOk_freezer_host _ _).1 this.2.1

end Cap

namespace Cap.Examples
open Toy Spec

/-- the example freeze note is opened and its inputs are host records with the code of the asset -/
example : OpensFreeze 4 1 frzNote (freezeWitV frzRng.blinds frzInputs feeInfo) ∧
    frozenRec.asset_def.code ≠ dummyCode ∧
    ∃ i ∈ (freezeWitV frzRng.blinds frzInputs feeInfo).inputs, Reads frozenRec i.ro :=
  ⟨frz_opens, by decide +kernel, _, List.mem_cons_self, Reads.toV _⟩

/-- it is accepted -/
example : ∃ w, OpensFreeze 4 1 frzNote w :=
  (C07_accepted Toy.sound frzKeys_eq frzNote_verify rfl).imp fun _ h => h.1

/-- and generated -/
example : assetRec.asset_def.policy.freezer_pk = smulFr freezer.sec_key E.gen :=
  (C07_generated frzNote_eq ⟨assetRec, acc1, freezer⟩ (by simp [frzInputs]) (by decide +kernel)).2

end Cap.Examples
