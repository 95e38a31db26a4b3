/-
Helper lemmas: what a successful `MintNote::generate` or `FreezeNote::generate` tells us.
-/
import Verif.Lemmas.GenerateTransfer

namespace Cap

variable [E : CapEnv]

/-! ### `check_fee` -/

/-- what `check_fee` accepts -/
structure FeeOk (fee : TxnFeeInfo) : Prop where
  balance : fee.fee_input.ro.amount.val = fee.fee_chg_ro.amount.val + fee.fee_amount.val
  fee_native : fee.fee_input.ro.asset_def = AssetDefinition.native
  chg_native : fee.fee_chg_ro.asset_def = AssetDefinition.native
  same_key : fee.fee_chg_ro.pub_key = fee.fee_input.ro.pub_key
  member : merkleRoot (fee.fee_input.acc.uid.val : F) fee.fee_input.ro.commitment fee.fee_input.acc.path =
    fee.fee_input.acc.root

theorem checkFee_ok {fee : TxnFeeInfo} : checkFee fee = .ok () ↔ FeeOk fee := by
  unfold checkFee
  simp only [bind_ok_iff, ensure_ok_iff, exists_and_left, exists_const, Bool.not_eq_true', decide_eq_false_iff_not,
    decide_eq_true_eq, AssetDefinition.isNative_iff, merkleCheck_iff, gt_iff_lt, not_lt]
  constructor
  · rintro ⟨h1, h2, h3, h4, h5, h6⟩
    refine ⟨?_, h3, h4, h5, h6⟩
    have := Fin.sub_val_of_le h1
    rw [← h2, this]
    have h1' : fee.fee_amount.val ≤ fee.fee_input.ro.amount.val := h1
    omega
  · rintro ⟨h1, h3, h4, h5, h6⟩
    have hle : fee.fee_amount ≤ fee.fee_input.ro.amount := by
      show fee.fee_amount.val ≤ fee.fee_input.ro.amount.val
      omega
    refine ⟨hle, ?_, h3, h4, h5, h6⟩
    apply Fin.ext
    rw [Fin.sub_val_of_le hle]
    omega

theorem checkUnfrozen_ok {inputs outputs : List RecordOpening} :
    checkUnfrozen inputs outputs = .ok () ↔ (∀ r ∈ inputs, r.freeze_flag = .unfrozen) ∧
      ∀ r ∈ outputs, r.freeze_flag = .unfrozen := by
  unfold checkUnfrozen
  rw [ensure_ok_iff]
  simp only [Bool.not_eq_true', List.any_eq_false, decide_eq_true_eq, List.mem_append]
  constructor
  · intro h
    constructor <;> intro r hr
    · have := h r (Or.inl hr); cases hf : r.freeze_flag <;> simp_all
    · have := h r (Or.inr hr); cases hf : r.freeze_flag <;> simp_all
  · rintro ⟨h1, h2⟩ r (hr | hr)
    · rw [h1 r hr]; simp
    · rw [h2 r hr]; simp

theorem applyStream_length (ks : ℕ → F) : ∀ i l, (applyStream ks i l).length = l.length
  | _, [] => rfl
  | i, _ :: ms => by simp [applyStream, applyStream_length ks (i + 1) ms]

theorem viewerEncrypt_length (pk : Pt) (rand : Fr) (msg : List F) : (viewerEncrypt pk rand msg).data.length = msg.length := by
  simp [viewerEncrypt, applyStream_length]

theorem newForMintNote_length (ro : RecordOpening) (rand : Fr) : (ViewableMemo.newForMintNote ro rand).data.length = 3 := by
  unfold ViewableMemo.newForMintNote
  simp only
  rw [viewerEncrypt_length]
  split <;> rfl

/-- the library's encryption is the one computed in the circuit -/
theorem viewerEncrypt_toV (pk : Pt) (rand : Fr) (msg : List F) :
    (viewerEncrypt pk rand msg).toV = MemoV.derive (E.xy pk) msg (frToFq rand) := by
  unfold viewerEncrypt ViewableMemo.toV MemoV.derive
  simp only [frToFq_val, E.ecMul_xy, smulFr]

/-! ### Mint -/

/-- the witness `MintNote::generate` builds -/
def mintWitnessOf (rng_enc : Fr) (mint_ro : RecordOpening) (ac_seed : F) (desc : List Byte) (fee : TxnFeeInfo) :
    MintWitness :=
  { minter_keypair := fee.fee_input.owner_keypair, acc := fee.fee_input.acc, fee_ro := fee.fee_input.ro, mint_ro,
    chg_ro := fee.fee_chg_ro, ac_seed, ac_digest := E.descDigest desc, enc_rand := rng_enc }

/-- the host checks of `MintNote::generate` -/
structure MintChecks (mint_ro : RecordOpening) (ac_seed : F) (desc : List Byte) (fee : TxnFeeInfo) (depth : ℕ) :
    Prop where
  path : fee.fee_input.acc.path.length = depth
  owner : fee.fee_input.ro.pub_key = fee.fee_input.owner_keypair.pubKey
  code : mint_ro.asset_def.code = newDomestic ac_seed desc
  fee_ok : FeeOk fee
  fee_unfrozen : fee.fee_input.ro.freeze_flag = .unfrozen
  chg_unfrozen : fee.fee_chg_ro.freeze_flag = .unfrozen
  mint_unfrozen : mint_ro.freeze_flag = .unfrozen

/-- the statement `MintNote::generate` proves -/
def mintPubOf (enc : Fr) (mint_ro : RecordOpening) (ac_seed : F) (desc : List Byte) (fee : TxnFeeInfo) :
    MintPublicInput :=
  { merkle_root := fee.fee_input.acc.root, native_asset_code := nativeCode,
    input_nullifier := fee.fee_input.owner_keypair.nullify fee.fee_input.ro.asset_def.policy.freezer_pk
      fee.fee_input.acc.uid fee.fee_input.ro.commitment,
    fee := fee.fee_amount, mint_rc := mint_ro.commitment, chg_rc := fee.fee_chg_ro.commitment,
    mint_amount := mint_ro.amount, mint_ac := newDomestic ac_seed desc,
    mint_internal_ac := internalCodeOfDesc ac_seed desc, mint_policy := mint_ro.asset_def.policy,
    viewing_memo := ViewableMemo.newForMintNote mint_ro enc }

theorem mint_fromWitness {enc : Fr} {mint_ro : RecordOpening} {ac_seed : F} {desc : List Byte} {fee : TxnFeeInfo}
    (h : FeeOk fee) : MintPublicInput.fromWitness (mintWitnessOf enc mint_ro ac_seed desc fee) =
      .ok (mintPubOf enc mint_ro ac_seed desc fee) := by
  unfold MintPublicInput.fromWitness mintWitnessOf
  have h1 : ¬ fee.fee_input.ro.amount < fee.fee_chg_ro.amount := by
    show ¬ fee.fee_input.ro.amount.val < fee.fee_chg_ro.amount.val
    have := h.balance
    omega
  have h2 : fee.fee_input.ro.amount - fee.fee_chg_ro.amount = fee.fee_amount := by
    apply Fin.ext
    rw [Fin.sub_val_of_le (not_lt.1 h1)]
    have := h.balance
    omega
  simp only [h1, if_false, h.chg_native, h.fee_native, ne_eq, not_true, h2]
  unfold mintPubOf
  rw [h.fee_native]
  rfl

theorem mint_toF_balance {fee : TxnFeeInfo} (h : FeeOk fee) :
    Amount.toF fee.fee_amount + Amount.toF fee.fee_chg_ro.amount = (Amount.toF fee.fee_input.ro.amount : F) := by
  unfold Amount.toF
  rw [h.balance]
  push_cast
  ring

/-- an honestly built mint satisfies the circuit -/
theorem mint_sat {enc : Fr} {mint_ro : RecordOpening} {ac_seed : F} {desc : List Byte} {fee : TxnFeeInfo} {d : ℕ}
    (h : MintChecks mint_ro ac_seed desc fee d) (hr : mint_ro.amount.val < 2 ^ 127) :
    MintSat (mintWitnessOf enc mint_ro ac_seed desc fee).toV (mintPubOf enc mint_ro ac_seed desc fee).toV where
  memo_len := newForMintNote_length _ _
  mint_rc := mint_ro.toV_commitment
  chg_rc := fee.fee_chg_ro.toV_commitment
  internal := rfl
  balance := mint_toF_balance h.fee_ok
  spend := (SpendOk_user_host _ _).2 (by
    show fee.fee_input.ro.pub_key.address = fee.fee_input.owner_keypair.address
    rw [h.owner]; rfl)
  root := (spendRoot_host _ _).trans h.fee_ok.member
  nullifier := spendNullifier_user _ _ _
  mint_unfrozen := FreezeFlag.toBool_eq_false.2 h.mint_unfrozen
  fee_unfrozen := FreezeFlag.toBool_eq_false.2 h.fee_unfrozen
  chg_unfrozen := FreezeFlag.toBool_eq_false.2 h.chg_unfrozen
  mint_range := by
    unfold InRange AMOUNT_LEN
    show (Amount.toF mint_ro.amount : F).val < 2 ^ 127
    rw [Amount.toF_val]; exact hr
  mint_amount := rfl
  mint_code := h.code
  mint_policy := AssetPolicy.enforceEqual_host.2 rfl
  chg_code := congrArg AssetDefinition.code h.fee_ok.chg_native
  fee_code := congrArg AssetDefinition.code h.fee_ok.fee_native
  chg_policy := AssetPolicy.enforceDummy_host.2 (congrArg AssetDefinition.policy h.fee_ok.chg_native)
  fee_policy := AssetPolicy.enforceDummy_host.2 (congrArg AssetDefinition.policy h.fee_ok.fee_native)
  same_owner := by
    show E.xy fee.fee_input.ro.pub_key.address = E.xy fee.fee_chg_ro.pub_key.address
    rw [h.fee_ok.same_key]
  rand_ok := frToFq_ok _
  memo := by
    by_cases hv : mint_ro.asset_def.policy.viewer_pk = 0
    · exact Or.inl ((isDummyViewingPk_host _).2 hv)
    · refine Or.inr ?_
      unfold mintCorrectMemoV
      rw [decide_eq_true_iff]
      show (ViewableMemo.newForMintNote mint_ro enc).toV = _
      unfold ViewableMemo.newForMintNote
      simp only [hv, if_false]
      exact viewerEncrypt_toV _ _ _

theorem mint_shape {enc : Fr} {mint_ro : RecordOpening} {ac_seed : F} {desc : List Byte} {fee : TxnFeeInfo} {d : ℕ}
    (h : MintChecks mint_ro ac_seed desc fee d) :
    MintShape d (mintWitnessOf enc mint_ro ac_seed desc fee).toV (mintPubOf enc mint_ro ac_seed desc fee).toV :=
  ⟨h.path, newForMintNote_length _ _⟩

variable [S : CapExt]

/-- What a successful `MintNote::generate` returned. -/
structure MintGen (rng : TransferRand) (mint_ro : RecordOpening) (ac_seed : F) (desc : List Byte) (fee : TxnFeeInfo)
    (pk : MintProvingKey) (n : MintNote) (sk : Fr) : Prop where
  checks : MintChecks mint_ro ac_seed desc fee pk.tree_depth.val
  prove : S.prove pk.key (.mint (mintWitnessOf rng.enc_rand mint_ro ac_seed desc fee).toV
    (mintPubOf rng.enc_rand mint_ro ac_seed desc fee).toV) (E.verKeyBytes (smulFr rng.sign_sk E.gen)) rng.seed =
      some n.proof
  pub : n.pub = mintPubOf rng.enc_rand mint_ro ac_seed desc fee
  asset : n.mint_asset_def = mint_ro.asset_def
  ver_key : n.aux_info.txn_memo_ver_key = smulFr rng.sign_sk E.gen
  sign_key : sk = rng.sign_sk

theorem MintNote.generate_ok {rng : TransferRand} {mint_ro : RecordOpening} {ac_seed : F} {desc : List Byte}
    {fee : TxnFeeInfo} {pk : MintProvingKey} {n : MintNote} {sk : Fr} :
    MintNote.generate rng mint_ro ac_seed desc fee pk = .ok (n, sk) ↔
      MintGen rng mint_ro ac_seed desc fee pk n sk := by
  have hk : ∀ {u}, mintCheckProvingKey pk.tree_depth fee.fee_input.acc = .ok u ↔
      fee.fee_input.acc.path.length = pk.tree_depth.val := by
    intro u; unfold mintCheckProvingKey; rw [ensure_ok_iff, decide_eq_true_iff]
  have ho : ∀ {u}, mintCheckInputPubKey fee.fee_input.ro fee.fee_input.owner_keypair = .ok u ↔
      fee.fee_input.ro.pub_key = fee.fee_input.owner_keypair.pubKey := by
    intro u; unfold mintCheckInputPubKey; rw [ensure_ok_iff, decide_eq_true_iff]
  have hc : ∀ {u}, mintCheckAssetCode mint_ro ac_seed (E.descDigest desc) = .ok u ↔
      mint_ro.asset_def.code = newDomestic ac_seed desc := by
    intro u; unfold mintCheckAssetCode; rw [ensure_ok_iff, decide_eq_true_iff]; rfl
  unfold MintNote.generate
  simp only [bind_ok_iff, hk, ho, hc]
  constructor
  · rintro ⟨_, h1, _, h2, _, h3, _, h4, _, h5, pub, h6, π, h7, h8⟩
    have hf := checkFee_ok.1 h4
    rw [checkUnfrozen_ok] at h5
    have h6' := h6.symm.trans (mint_fromWitness (enc := rng.enc_rand) (mint_ro := mint_ro) (ac_seed := ac_seed)
      (desc := desc) hf)
    cases h6'
    unfold mintProve at h7
    split at h7
    · cases h7
    · rw [orFailedSnark_ok] at h7
      cases h8
      have hch : MintChecks mint_ro ac_seed desc fee pk.tree_depth.val :=
        ⟨h1, h2, h3, hf, h5.1 _ (by simp), h5.2 _ (by simp), h5.2 _ (by simp)⟩
      refine ⟨hch, h7, ?_, rfl, rfl, rfl⟩
      unfold MintNote.pub mintPubOf
      simp only [h3]
  · rintro ⟨hch, hp, hpub, ha, hv, hs⟩
    refine ⟨(), hch.path, (), hch.owner, (), hch.code, (), checkFee_ok.2 hch.fee_ok, (), checkUnfrozen_ok.2 ?_,
      mintPubOf rng.enc_rand mint_ro ac_seed desc fee, mint_fromWitness hch.fee_ok, n.proof, ?_, ?_⟩
    · constructor
      · simp only [List.mem_singleton, forall_eq]; exact hch.fee_unfrozen
      · simp only [List.mem_cons, List.not_mem_nil, or_false, forall_eq_or_imp, forall_eq]
        exact ⟨hch.chg_unfrozen, hch.mint_unfrozen⟩
    · unfold mintProve
      rw [if_neg (by
        show ¬ (ViewableMemo.newForMintNote mint_ro rng.enc_rand).data.length ≠ 3
        rw [newForMintNote_length]; simp), orFailedSnark_ok]
      exact hp
    · subst hs
      rcases n with ⟨a1, a2, a3, a4, a5, a6, a7, a8, ⟨b1, b2, b3⟩⟩
      simp only [MintNote.pub, mintPubOf, MintPublicInput.mk.injEq] at hpub ha hv
      obtain ⟨e1, -, e3, e4, e5, e6, e7, e8, e9, e10, e11⟩ := hpub
      subst e1 e3 e4 e5 e6 e7 e9 e11 ha hv
      rfl

theorem MintGen.verifies {rng : TransferRand} {mint_ro : RecordOpening} {ac_seed : F} {desc : List Byte}
    {fee : TxnFeeInfo} {pk : MintProvingKey} {n : MintNote} {sk : Fr}
    (h : MintGen rng mint_ro ac_seed desc fee pk n sk) (hc : SnarkComplete) {vk : S.Vk}
    (hk : S.preprocess (.mint pk.tree_depth.val) = some (pk.key, vk)) (hr : mint_ro.amount.val < 2 ^ 127) :
    S.verify vk n.pub.toScalars n.proof (E.verKeyBytes n.aux_info.txn_memo_ver_key) = true := by
  obtain ⟨π, h1, h2⟩ := hc _ _ _ hk (.mint _ _) (mint_shape h.checks) (mint_sat h.checks hr)
    (E.verKeyBytes (smulFr rng.sign_sk E.gen)) rng.seed
  rw [h.prove] at h1
  cases h1
  rw [h.pub, h.ver_key]
  exact h2

theorem MintGen.domestic {rng : TransferRand} {mint_ro : RecordOpening} {ac_seed : F} {desc : List Byte}
    {fee : TxnFeeInfo} {pk : MintProvingKey} {n : MintNote} {sk : Fr}
    (h : MintGen rng mint_ro ac_seed desc fee pk n sk) :
    domesticFromInternal n.mint_internal_asset_code = n.mint_asset_def.code := by
  have hp := h.pub
  have h1 : n.mint_internal_asset_code = internalCodeOfDesc ac_seed desc :=
    congrArg MintPublicInput.mint_internal_ac hp
  have h2 : n.mint_asset_def.code = newDomestic ac_seed desc := congrArg MintPublicInput.mint_ac hp
  rw [h1, h2]
  rfl

/-! ### Freeze -/

/-- the host checks of `FreezeNote::generate` -/
structure FreezeChecks (inputs : List FreezeNoteInput) (fee : TxnFeeInfo) (num_input depth : ℕ) : Prop where
  nonempty : inputs ≠ []
  num : num_input = inputs.length + 1
  path : depth = fee.fee_input.acc.path.length % 256
  roots : ∀ i ∈ inputs, i.ro.asset_def ≠ AssetDefinition.dummy → i.acc.root = fee.fee_input.acc.root
  policies : ∀ i ∈ inputs, i.ro.asset_def ≠ AssetDefinition.dummy → i.ro.asset_def.policy.freezer_pk ≠ 0
  fee_ok : FeeOk fee

/-- the statement `FreezeNote::generate` proves -/
def freezePubOf (blinds : ℕ → F) (inputs : List FreezeNoteInput) (fee : TxnFeeInfo) : FreezePublicInput :=
  { merkle_root := fee.fee_input.acc.root, native_asset_code := nativeCode, fee := fee.fee_amount,
    input_nullifiers := fee.fee_input.owner_keypair.nullify 0 fee.fee_input.acc.uid fee.fee_input.ro.commitment ::
      inputs.map (fun i => freezeNullifier i.keypair i.ro i.acc),
    output_commitments := fee.fee_chg_ro.commitment ::
      (freezeGetOutputRos blinds inputs).map RecordOpening.commitment }

theorem freezeNullifiers_map (inputs : List FreezeNoteInput) :
    freezeNullifiers (inputs.map (·.keypair)) (inputs.map (·.ro)) (inputs.map (·.acc)) =
      inputs.map (fun i => freezeNullifier i.keypair i.ro i.acc) := by
  induction inputs with
  | nil => rfl
  | cons i is ih => simp only [List.map_cons, freezeNullifiers, ih]

theorem freezeGetOutputRos_length (blinds : ℕ → F) (inputs : List FreezeNoteInput) :
    (freezeGetOutputRos blinds inputs).length = inputs.length := by simp [freezeGetOutputRos]

theorem freeze_fromWitness {blinds : ℕ → F} {inputs : List FreezeNoteInput} {fee : TxnFeeInfo}
    (hne : inputs ≠ []) (h : FeeOk fee) :
    FreezePublicInput.fromWitness (FreezeWitness.newUnchecked inputs (freezeGetOutputRos blinds inputs) fee) =
      .ok (freezePubOf blinds inputs fee) := by
  unfold FreezePublicInput.fromWitness FreezeWitness.newUnchecked
  have hl : inputs.length ≠ 0 := fun h => hne (List.length_eq_zero_iff.1 h)
  have h1 : ¬ fee.fee_input.ro.amount < fee.fee_chg_ro.amount := by
    show ¬ fee.fee_input.ro.amount.val < fee.fee_chg_ro.amount.val
    have := h.balance
    omega
  have h2 : fee.fee_input.ro.amount - fee.fee_chg_ro.amount = fee.fee_amount := by
    apply Fin.ext
    rw [Fin.sub_val_of_le (not_lt.1 h1)]
    have := h.balance
    omega
  simp only [List.length_cons, List.length_map, freezeGetOutputRos_length, ne_eq, not_true, if_false, h1, h2]
  rw [if_neg (by omega), freezeNullifiers_map]
  rfl

/-- What a successful `FreezeNote::generate` returned. -/
structure FreezeGen (rng : FreezeRand) (inputs : List FreezeNoteInput) (fee : TxnFeeInfo) (pk : FreezeProvingKey)
    (n : FreezeNote) (sk : Fr) (outs : List RecordOpening) : Prop where
  checks : FreezeChecks inputs fee pk.num_input pk.tree_depth.val
  pub : n.pub = freezePubOf rng.blinds inputs fee
  distinct : checkDistinctInputNullifiers n.input_nullifiers = .ok ()
  prove : freezeProve pk (FreezeWitness.newUnchecked inputs (freezeGetOutputRos rng.blinds inputs) fee) n.pub
    (smulFr rng.sign_sk E.gen) rng.seed = .ok n.proof
  ver_key : n.aux_info.txn_memo_ver_key = smulFr rng.sign_sk E.gen
  sign_key : sk = rng.sign_sk
  outs_eq : outs = freezeGetOutputRos rng.blinds inputs

theorem FreezeNote.generate_ok {rng : FreezeRand} {inputs : List FreezeNoteInput} {fee : TxnFeeInfo}
    {pk : FreezeProvingKey} {n : FreezeNote} {sk : Fr} {outs : List RecordOpening} :
    FreezeNote.generate rng inputs fee pk = .ok (n, sk, outs) ↔ FreezeGen rng inputs fee pk n sk outs := by
  have hl : ∀ {u}, freezeCheckInputsLen inputs.length = .ok u ↔ inputs ≠ [] := by
    intro u; unfold freezeCheckInputsLen; rw [ensure_ok_iff, decide_eq_true_iff]; simp
  have hk : ∀ {u}, freezeCheckProvingKey pk.num_input pk.tree_depth (inputs.length + 1)
      (Fin.ofNat 256 fee.fee_input.acc.path.length) = .ok u ↔
      (pk.num_input = inputs.length + 1 ∧ pk.tree_depth.val = fee.fee_input.acc.path.length % 256) := by
    intro u; unfold freezeCheckProvingKey; rw [ensure_ok_iff]
    simp [Fin.ext_iff, Fin.ofNat]
  have hr : ∀ {x}, freezeCheckAndGetRoot fee.fee_input inputs = .ok x ↔
      ((∀ i ∈ inputs, i.ro.asset_def ≠ AssetDefinition.dummy → i.acc.root = fee.fee_input.acc.root) ∧
        x = fee.fee_input.acc.root) := by
    intro x
    unfold freezeCheckAndGetRoot
    split
    · rename_i h
      simp only [List.any_eq_true, List.mem_filter, Bool.not_eq_true', decide_eq_true_eq] at h
      obtain ⟨i, ⟨hi, hd⟩, hne⟩ := h
      simp only [reduceCtorEq, false_iff, not_and]
      intro hall
      exact absurd (hall i hi (fun hd' => by
        rw [(RecordOpening.isDummy_iff i.ro).2 hd'] at hd; cases hd)) hne
    · rename_i h
      simp only [List.any_eq_true, List.mem_filter, Bool.not_eq_true', decide_eq_true_eq] at h
      push Not at h
      simp only [Except.ok.injEq]
      constructor
      · rintro rfl
        refine ⟨fun i hi hd => h i ⟨hi, ?_⟩, rfl⟩
        rw [Bool.eq_false_iff]
        intro hb
        exact hd ((RecordOpening.isDummy_iff _).1 hb)
      · rintro ⟨-, rfl⟩; rfl
  have hpol : ∀ {u}, freezeCheckPolicies inputs = .ok u ↔
      ∀ i ∈ inputs, i.ro.asset_def ≠ AssetDefinition.dummy → i.ro.asset_def.policy.freezer_pk ≠ 0 := by
    intro u
    unfold freezeCheckPolicies
    rw [ensure_ok_iff]
    simp only [List.all_eq_true, Bool.not_eq_true', Bool.and_eq_false_iff, decide_eq_false_iff_not,
      Bool.not_eq_false', RecordOpening.isDummy_iff]
    refine forall₂_congr fun i hi => ?_
    tauto
  unfold FreezeNote.generate
  simp only [bind_ok_iff, hl, hk, hr, hpol]
  constructor
  · rintro ⟨_, h1, _, ⟨h2, h2'⟩, root, ⟨h3, rfl⟩, _, h4, _, h5, pub, h6, _, h7, π, h8, h9⟩
    have hf := checkFee_ok.1 h5
    have h6' := h6.symm.trans (freeze_fromWitness (blinds := rng.blinds) h1 hf)
    cases h6'
    cases h9
    exact ⟨⟨h1, h2, h2', h3, h4, hf⟩, rfl, h7, h8, rfl, rfl, rfl⟩
  · rintro ⟨hch, hp, hd, hpr, hv, hs, ho⟩
    have hn : n.input_nullifiers = (freezePubOf rng.blinds inputs fee).input_nullifiers :=
      congrArg FreezePublicInput.input_nullifiers hp
    refine ⟨(), hch.nonempty, (), ⟨hch.num, hch.path⟩, _, ⟨hch.roots, rfl⟩, (), hch.policies, (),
      checkFee_ok.2 hch.fee_ok, _, freeze_fromWitness hch.nonempty hch.fee_ok, (), hn ▸ hd, n.proof, hp ▸ hpr, ?_⟩
    subst hs ho
    rcases n with ⟨a1, a2, a3, ⟨b1, b2, b3⟩⟩
    simp only [FreezeNote.pub, freezePubOf, FreezePublicInput.mk.injEq] at hp hv
    obtain ⟨e1, -, e2, e3, e4⟩ := hp
    subst e1 e2 e3 e4 hv
    rfl

theorem freezeInputsV_length : ∀ (a : List RecordOpening) (b : List AccMemberWitness) (c : List FreezerKeyPair)
    (d : List RecordOpening), a.length = b.length → a.length = c.length → a.length = d.length →
    (freezeInputsV a b c d).length = a.length
  | [], _, _, _, _, _, _ => by simp [freezeInputsV]
  | _ :: as, [], _, _, h, _, _ => by simp at h
  | _ :: as, _ :: bs, [], _, _, h, _ => by simp at h
  | _ :: as, _ :: bs, _ :: cs, [], _, _, h => by simp at h
  | _ :: as, _ :: bs, _ :: cs, _ :: ds, h1, h2, h3 => by
    simp only [freezeInputsV, List.length_cons]
    rw [freezeInputsV_length as bs cs ds (by simpa using h1) (by simpa using h2) (by simpa using h3)]

theorem mem_freezeInputsV : ∀ (a : List RecordOpening) (b : List AccMemberWitness) (c : List FreezerKeyPair)
    (d : List RecordOpening) (x : FreezeInputV), x ∈ freezeInputsV a b c d → ∃ acc ∈ b, x.acc = acc.toV
  | [], _, _, _, _, h => by simp [freezeInputsV] at h
  | _ :: as, [], _, _, _, h => by simp [freezeInputsV] at h
  | _ :: as, _ :: bs, [], _, _, h => by simp [freezeInputsV] at h
  | _ :: as, _ :: bs, _ :: cs, [], _, h => by simp [freezeInputsV] at h
  | _ :: as, b :: bs, _ :: cs, _ :: ds, x, h => by
    simp only [freezeInputsV, List.mem_cons] at h
    rcases h with rfl | h
    · exact ⟨b, by simp, rfl⟩
    · obtain ⟨acc, h1, h2⟩ := mem_freezeInputsV as bs cs ds x h
      exact ⟨acc, by simp [h1], h2⟩

/-- the circuit assignment of a generated freeze note -/
def freezeWitV (blinds : ℕ → F) (inputs : List FreezeNoteInput) (fee : TxnFeeInfo) : FreezeWit :=
  ⟨fee.fee_input.ro.toV, fee.fee_input.acc.toV, frToFq fee.fee_input.owner_keypair.sk, fee.fee_chg_ro.toV,
    freezeInputsV (inputs.map (·.ro)) (inputs.map (·.acc)) (inputs.map (·.keypair)) (freezeGetOutputRos blinds inputs)⟩

/-- the circuit's public input of a generated freeze note -/
def freezePubV (blinds : ℕ → F) (inputs : List FreezeNoteInput) (fee : TxnFeeInfo) : FreezePub :=
  ⟨fee.fee_input.acc.root, nativeCode, Amount.toF fee.fee_amount,
    fee.fee_input.owner_keypair.nullify 0 fee.fee_input.acc.uid fee.fee_input.ro.commitment,
    inputs.map (fun i => freezeNullifier i.keypair i.ro i.acc), fee.fee_chg_ro.commitment,
    (freezeGetOutputRos blinds inputs).map RecordOpening.commitment⟩

theorem freezePubV_toScalars (blinds : ℕ → F) (inputs : List FreezeNoteInput) (fee : TxnFeeInfo) :
    (freezePubV blinds inputs fee).toScalars = (freezePubOf blinds inputs fee).toScalars := rfl

theorem FreezeGen.sat {rng : FreezeRand} {inputs : List FreezeNoteInput} {fee : TxnFeeInfo} {pk : FreezeProvingKey}
    {n : FreezeNote} {sk : Fr} {outs : List RecordOpening} (h : FreezeGen rng inputs fee pk n sk outs) :
    FreezeSat (freezeWitV rng.blinds inputs fee) (freezePubV rng.blinds inputs fee) ∧
      S.prove pk.key (.freeze (freezeWitV rng.blinds inputs fee) (freezePubV rng.blinds inputs fee))
        (E.verKeyBytes (smulFr rng.sign_sk E.gen)) rng.seed = some n.proof := by
  have hp := h.prove
  rw [h.pub] at hp
  unfold freezeProve at hp
  split at hp
  · cases hp
  · simp only [FreezeWitness.newUnchecked, FreezeWitness.toV, FreezePublicInput.toV, freezePubOf] at hp
    by_cases hs : FreezeSat (freezeWitV rng.blinds inputs fee) (freezePubV rng.blinds inputs fee)
    · refine ⟨hs, ?_⟩
      have hp' := (if_pos (c := FreezeSat (freezeWitV rng.blinds inputs fee) (freezePubV rng.blinds inputs fee) ∧
        (freezePubV rng.blinds inputs fee).toScalars = (freezePubOf rng.blinds inputs fee).toScalars)
        ⟨hs, rfl⟩).symm.trans hp
      exact orFailedSnark_ok.1 hp'
    · have hp' := (if_neg (c := FreezeSat (freezeWitV rng.blinds inputs fee) (freezePubV rng.blinds inputs fee) ∧
        (freezePubV rng.blinds inputs fee).toScalars = (freezePubOf rng.blinds inputs fee).toScalars)
        (fun h => hs h.1)).symm.trans hp
      cases hp'

theorem FreezeGen.shape {rng : FreezeRand} {inputs : List FreezeNoteInput} {fee : TxnFeeInfo} {pk : FreezeProvingKey}
    {n : FreezeNote} {sk : Fr} {outs : List RecordOpening} (h : FreezeGen rng inputs fee pk n sk outs)
    (hf : fee.fee_input.acc.path.length = pk.tree_depth.val)
    (hi : ∀ i ∈ inputs, i.acc.path.length = pk.tree_depth.val) :
    FreezeShape pk.num_input pk.tree_depth.val (freezeWitV rng.blinds inputs fee)
      (freezePubV rng.blinds inputs fee) where
  inputs_len := by
    rw [h.checks.num]
    unfold freezeWitV
    simp only
    rw [freezeInputsV_length] <;> simp [freezeGetOutputRos_length]
  nullifiers_len := by rw [h.checks.num]; simp [freezePubV]
  commitments_len := by rw [h.checks.num]; simp [freezePubV, freezeGetOutputRos_length]
  fee_path_len := hf
  path_len := by
    intro x hx
    obtain ⟨acc, h1, h2⟩ := mem_freezeInputsV _ _ _ _ _ hx
    obtain ⟨i, hi', rfl⟩ := List.mem_map.1 h1
    rw [h2]
    exact hi i hi'

theorem FreezeGen.verifies {rng : FreezeRand} {inputs : List FreezeNoteInput} {fee : TxnFeeInfo} {pk : FreezeProvingKey}
    {n : FreezeNote} {sk : Fr} {outs : List RecordOpening} (h : FreezeGen rng inputs fee pk n sk outs)
    (hc : SnarkComplete) {vk : S.Vk} (hk : S.preprocess (.freeze pk.num_input pk.tree_depth.val) = some (pk.key, vk))
    (hs : FreezeShape pk.num_input pk.tree_depth.val (freezeWitV rng.blinds inputs fee)
      (freezePubV rng.blinds inputs fee)) :
    S.verify vk n.pub.toScalars n.proof (E.verKeyBytes n.aux_info.txn_memo_ver_key) = true := by
  obtain ⟨hsat, hp⟩ := h.sat
  obtain ⟨π, h1, h2⟩ := hc _ _ _ hk (.freeze _ _) hs hsat (E.verKeyBytes (smulFr rng.sign_sk E.gen)) rng.seed
  rw [hp] at h1
  cases h1
  rw [h.pub, h.ver_key]
  exact h2

end Cap
