/-
Helper lemmas: a mint or freeze request that meets the conditions of `SpecComplete` passes every check of `generate` and
satisfies the circuit.
-/
import Verif.SpecComplete
import Verif.Lemmas.Complete
import Verif.Props.C18
import Verif.Props.C19
import Verif.Props.C23

namespace Cap

open Spec

variable [E : CapEnv]

theorem Spec.PaysFee.info {d : ℕ} {root : F} {fi : FeeInput} {fee : Amount} (h : PaysFee d root fi fee) (blind : F) :
    ∃ info chg, TxnFeeInfo.new blind fi fee = .ok (info, chg) := by
  obtain ⟨⟨info, chg⟩, hx⟩ := (C23_new_ok blind fi fee).1.2 h.covers
  exact ⟨info, chg, hx⟩

theorem Spec.PaysFee.fee_ok {d : ℕ} {root : F} {fi : FeeInput} {fee : Amount} (h : PaysFee d root fi fee) {blind : F}
    {info : TxnFeeInfo} {chg : RecordOpening} (new : TxnFeeInfo.new blind fi fee = .ok (info, chg)) : FeeOk info := by
  obtain ⟨h1, h2, h3, h4, -, rfl, rfl, rfl⟩ := C23_change _ _ _ _ _ new
  exact ⟨by omega, h.native, h3, h2, h.member.2.trans h.member.1.symm⟩

theorem Spec.Mintable.checks {seed : F} {desc : List Byte} {ro : RecordOpening} (h : Mintable seed desc ro) {d : ℕ}
    {root : F} {fi : FeeInput} {fee : Amount} (hp : PaysFee d root fi fee) {blind : F}
    {info : TxnFeeInfo} {chg : RecordOpening} (new : TxnFeeInfo.new blind fi fee = .ok (info, chg)) :
    MintChecks ro seed desc info d := by
  have hf := hp.fee_ok new
  obtain ⟨h1, h2, h3, h4, -, rfl, rfl, rfl⟩ := C23_change _ _ _ _ _ new
  exact ⟨hp.depth, hp.owned, h.code, hf, hp.unfrozen, h4, h.unfrozen⟩

theorem freezeInputsV_zipWith : ∀ (inputs : List FreezeNoteInput) (outs : List RecordOpening),
    freezeInputsV (inputs.map (·.ro)) (inputs.map (·.acc)) (inputs.map (·.keypair)) outs =
      List.zipWith (fun i o => ⟨i.ro.toV, i.acc.toV, frToFq i.keypair.sec_key, o.toV⟩) inputs outs
  | [], _ => by simp [freezeInputsV]
  | _ :: _, [] => by simp [freezeInputsV]
  | i :: is, o :: os => by simp [freezeInputsV, freezeInputsV_zipWith is os]

theorem freezeFlagsFlipped_get : ∀ (a b : List RecordOpening),
    (∀ (k : ℕ) (i o : RecordOpening), a[k]? = some i → b[k]? = some o → i.freeze_flag ≠ o.freeze_flag) → freezeFlagsFlipped a b = true
  | [], _, _ => by simp [freezeFlagsFlipped]
  | _ :: _, [], _ => by simp [freezeFlagsFlipped]
  | i :: is, o :: os, h => by
    simp only [freezeFlagsFlipped, Bool.and_eq_true, decide_eq_true_eq]
    exact ⟨h 0 i o rfl rfl, freezeFlagsFlipped_get is os (fun k => h (k + 1))⟩

omit E in
theorem FreezeFlag.flip_ne (f : FreezeFlag) : f ≠ f.flip := by cases f <;> simp [FreezeFlag.flip]

theorem FreezeFlag.flip_sum (f : FreezeFlag) : boolF f.toBool + boolF f.flip.toBool = (1 : F) := by
  cases f <;> simp [boolF, FreezeFlag.toBool, FreezeFlag.flip]

/-- the nullifier the circuit computes for a freezing input -/
def circuitNullifierOf (i : FreezeNoteInput) : F := spendNullifier i.ro.toV i.acc.toV (frToFq i.keypair.sec_key) .freezer

variable [S : CapExt]

/-- a well-formed request satisfies the circuit if the circuit computes the nullifiers of the library -/
theorem freeze_sat {num d : ℕ} {root : F} {inputs : List FreezeNoteInput} {fi : FeeInput} {fee : Amount}
    (h : WellFormedFreeze num d root inputs fi fee)
    (same : ∀ i ∈ inputs, circuitNullifierOf i = freezerNullifierOf i) {blind : F}
    {info : TxnFeeInfo} {chg : RecordOpening} (new : TxnFeeInfo.new blind fi fee = .ok (info, chg)) (blinds : ℕ → F) :
    FreezeSat (freezeWitV blinds inputs info) (freezePubV blinds inputs info) := by
  have hf := h.pays.fee_ok new
  obtain ⟨h1, h2, h3, h4, -, rfl, rfl, rfl⟩ := C23_change _ _ _ _ _ new
  have hlen := freezeGetOutputRos_length blinds inputs
  refine ⟨?_, ?_, ?_, ?_, ?_, ?_, ?_, ?_, ?_, ?_, ?_, ?_, ?_, ?_⟩
  · exact congrArg AssetDefinition.code hf.fee_native
  · exact AssetPolicy.enforceDummy_host.2 (congrArg AssetDefinition.policy hf.fee_native)
  · exact congrArg AssetDefinition.code hf.chg_native
  · exact AssetPolicy.enforceDummy_host.2 (congrArg AssetDefinition.policy hf.chg_native)
  · exact FreezeFlag.toBool_eq_false.2 h.pays.unfrozen
  · exact FreezeFlag.toBool_eq_false.2 h4
  · have := mint_toF_balance hf
    rw [add_comm] at this
    exact this
  · refine (SpendOk_user_host _ _).2 ?_
    rw [h.pays.owned]; rfl
  · exact (spendRoot_host _ _).trans hf.member
  · refine (spendNullifier_user _ _ _).trans ?_
    show _ = info.fee_input.owner_keypair.nullify 0 _ _
    rw [hf.fee_native]
    rfl
  · intro x hx
    simp only [freezeWitV, freezeInputsV_zipWith] at hx
    obtain ⟨k, hk, rfl⟩ := List.mem_iff_getElem.1 hx
    simp only [List.getElem_zipWith, freezeGetOutputRos, List.getElem_mapIdx]
    exact ⟨FreezeFlag.flip_sum _, rfl, rfl, rfl, AssetPolicy.enforceEqual_host.2 rfl⟩
  · exact RecordOpening.toV_commitment _
  · intro x hx
    simp only [freezeWitV, freezePubV, freezeInputsV_zipWith] at hx
    obtain ⟨k, hk, rfl⟩ := List.mem_iff_getElem.1 hx
    simp only [List.getElem_zip, List.getElem_zipWith, List.getElem_map]
    exact RecordOpening.toV_commitment _
  · intro x hx
    simp only [freezeWitV, freezePubV, freezeInputsV_zipWith] at hx
    obtain ⟨k, hk, rfl⟩ := List.mem_iff_getElem.1 hx
    simp only [List.getElem_zip, List.getElem_zipWith, List.getElem_map]
    have hki : k < inputs.length := by
      simp only [List.length_zip, List.length_zipWith, List.length_map] at hk
      omega
    have hmem : inputs[k] ∈ inputs := List.getElem_mem hki
    have hs := same _ hmem
    rcases h.inputs_ok _ hmem with ⟨a1, a2, a3, a4, a5⟩ | ⟨a1, a2, a3⟩
    · refine ⟨Or.inl ?_, (SpendOk_freezer_host _ _).2 a2, Or.inl ?_, hs⟩
      · rw [Bool.eq_false_iff]
        exact fun hb => a1 ((isDummyFreezerPk_host _).1 hb)
      · exact (spendRoot_host _ _).trans (a5.trans h.pays.member.1.symm)
    · have hd := (RecordOpening.toV_isDummy inputs[k].ro).2 (by rw [a1]; rfl)
      refine ⟨Or.inr hd, (SpendOk_freezer_host _ _).2 ?_, Or.inr hd, hs⟩
      rw [a1, a2, smulFr_zero]
      rfl

omit S in
theorem freeze_flags (blinds : ℕ → F) (inputs : List FreezeNoteInput) :
    freezeFlagsFlipped (inputs.map (·.ro)) (freezeGetOutputRos blinds inputs) = true := by
  refine freezeFlagsFlipped_get _ _ (fun k i o hi ho => ?_)
  rw [freezeGetOutputRos, List.getElem?_mapIdx] at ho
  rw [List.getElem?_map] at hi
  cases hx : inputs[k]? with
  | none => rw [hx] at hi; cases hi
  | some x =>
    rw [hx] at hi ho
    cases hi
    cases ho
    exact FreezeFlag.flip_ne _

omit S in
theorem freeze_checks {num : ℕ} {d : Fin 256} {root : F} {inputs : List FreezeNoteInput} {fi : FeeInput} {fee : Amount}
    (h : WellFormedFreeze num d.val root inputs fi fee) {blind : F}
    {info : TxnFeeInfo} {chg : RecordOpening} (new : TxnFeeInfo.new blind fi fee = .ok (info, chg)) :
    FreezeChecks inputs info num d.val := by
  have hf := h.pays.fee_ok new
  obtain ⟨h1, h2, h3, h4, -, rfl, rfl, rfl⟩ := C23_change _ _ _ _ _ new
  refine ⟨h.some_input, h.num_in.symm, ?_, ?_, ?_, hf⟩
  · rw [h.pays.depth, Nat.mod_eq_of_lt d.isLt]
  · intro i hi hd
    rcases h.inputs_ok _ hi with ⟨a1, a2, a3, a4, a5⟩ | ⟨a1, a2, a3⟩
    · exact a4.trans h.pays.member.1.symm
    · exact absurd a1 hd
  · intro i hi hd
    rcases h.inputs_ok _ hi with ⟨a1, a2, a3, a4, a5⟩ | ⟨a1, a2, a3⟩
    · exact a1
    · exact absurd a1 hd

theorem freeze_shape {num d : ℕ} {root : F} {inputs : List FreezeNoteInput} {fi : FeeInput}
    {fee : Amount} (h : WellFormedFreeze num d root inputs fi fee) {blind : F}
    {info : TxnFeeInfo} {chg : RecordOpening} (new : TxnFeeInfo.new blind fi fee = .ok (info, chg)) (blinds : ℕ → F) :
    FreezeShape num d (freezeWitV blinds inputs info) (freezePubV blinds inputs info) := by
  have hnew := C23_change _ _ _ _ _ new
  refine ⟨?_, ?_, ?_, ?_, ?_⟩
  · rw [← h.num_in]
    unfold freezeWitV
    simp only
    rw [freezeInputsV_length] <;> simp [freezeGetOutputRos_length]
  · rw [← h.num_in]; simp [freezePubV]
  · rw [← h.num_in]; simp [freezePubV, freezeGetOutputRos_length]
  · show info.fee_input.acc.path.length = d
    rw [hnew.2.2.2.2.2.2.1]
    exact h.pays.depth
  · intro x hx
    obtain ⟨acc, h1, h2⟩ := mem_freezeInputsV _ _ _ _ _ hx
    obtain ⟨i, hi', rfl⟩ := List.mem_map.1 h1
    rw [h2]
    show i.acc.path.length = d
    rcases h.inputs_ok _ hi' with ⟨a1, a2, a3, a4, a5⟩ | ⟨a1, a2, a3⟩
    · exact a3
    · exact a3

/-- `FreezeNote::generate` with the proof it finds -/
theorem freeze_made {num : ℕ} {d : Fin 256} {root : F} {inputs : List FreezeNoteInput} {fi : FeeInput}
    {fee : Amount} {pk : FreezeProvingKey} {vk : FreezeVerifyingKey}
    (keys : freezePreprocess num d = .ok (pk, vk)) (h : WellFormedFreeze num d.val root inputs fi fee)
    (same : ∀ i ∈ inputs, circuitNullifierOf i = freezerNullifierOf i) {blind : F}
    {info : TxnFeeInfo} {chg : RecordOpening} (new : TxnFeeInfo.new blind fi fee = .ok (info, chg)) (rng : FreezeRand)
    {π : S.Proof} (hp : S.prove pk.key (.freeze (freezeWitV rng.blinds inputs info) (freezePubV rng.blinds inputs info))
      (E.verKeyBytes (smulFr rng.sign_sk E.gen)) rng.seed = some π) :
    FreezeNote.generate rng inputs info pk = .ok (⟨(freezePubOf rng.blinds inputs info).input_nullifiers,
      (freezePubOf rng.blinds inputs info).output_commitments, π, ⟨(freezePubOf rng.blinds inputs info).merkle_root,
      (freezePubOf rng.blinds inputs info).fee, smulFr rng.sign_sk E.gen⟩⟩,
      rng.sign_sk, freezeGetOutputRos rng.blinds inputs) := by
  obtain ⟨hk, e1, e2⟩ := freezePreprocess_ok keys
  have hsat := freeze_sat h same new rng.blinds
  have hch := freeze_checks h new
  have hnew := C23_change _ _ _ _ _ new
  refine FreezeNote.generate_ok.2 ⟨?_, rfl, ?_, ?_, rfl, rfl, rfl⟩
  · rw [e1, e2]; exact hch
  · refine checkDistinct_ok.2 ?_
    have ho := h.once
    unfold nullifierOf FeeInput.toTransferInput at ho
    simp only [h.pays.native] at ho
    show (info.fee_input.owner_keypair.nullify 0 _ _ :: _).Nodup
    rw [hnew.2.2.2.2.2.2.1]
    exact ho
  · unfold freezeProve
    rw [if_neg (by
      show ¬ (!freezeFlagsFlipped (inputs.map (·.ro)) (freezeGetOutputRos rng.blinds inputs)) = true
      rw [freeze_flags]; simp)]
    simp only [FreezeWitness.newUnchecked, FreezeWitness.toV, FreezePublicInput.toV]
    refine (if_pos (c := FreezeSat (freezeWitV rng.blinds inputs info) (freezePubV rng.blinds inputs info) ∧
        (freezePubV rng.blinds inputs info).toScalars = (freezePubOf rng.blinds inputs info).toScalars)
        ⟨hsat, rfl⟩).trans (orFailedSnark_ok.2 hp)

/-- what is left of `FreezeNote::generate` after the checks -/
theorem freeze_generates {num : ℕ} {d : Fin 256} {root : F} {inputs : List FreezeNoteInput} {fi : FeeInput}
    {fee : Amount} {pk : FreezeProvingKey} {vk : FreezeVerifyingKey} (complete : SnarkComplete)
    (keys : freezePreprocess num d = .ok (pk, vk)) (h : WellFormedFreeze num d.val root inputs fi fee)
    (same : ∀ i ∈ inputs, circuitNullifierOf i = freezerNullifierOf i) {blind : F}
    {info : TxnFeeInfo} {chg : RecordOpening} (new : TxnFeeInfo.new blind fi fee = .ok (info, chg)) (rng : FreezeRand) :
    ∃ n sk outs, FreezeNote.generate rng inputs info pk = .ok (n, sk, outs) ∧
      n.pub = freezePubOf rng.blinds inputs info ∧ outs = freezeGetOutputRos rng.blinds inputs := by
  obtain ⟨hk, e1, e2⟩ := freezePreprocess_ok keys
  obtain ⟨π, hp, -⟩ := complete _ _ _ hk (.freeze _ _) (freeze_shape h new rng.blinds) (freeze_sat h same new rng.blinds)
    (E.verKeyBytes (smulFr rng.sign_sk E.gen)) rng.seed
  exact ⟨_, _, _, freeze_made keys h same new rng hp, rfl, rfl⟩

end Cap
