/-
C53: every well-formed mint can be generated.

status: partial
note: C53_partial: whoever owns a native record of the tree that covers the fee, and knows the seed and description of an asset, can make the change record and a mint of any amount below 2^127 of it, for every owner, policy, blinding factor and randomness, and the note is accepted with the expected fields. FALSE for the other amounts a record can hold: C53_false: no mint of 2^127 or more is both generated and accepted (for a sound proof system), and C53_exact: if the prover refuses unsatisfied circuits, 2^127 is exactly where minting ends. C53_declared: with the asset code the API makes for this seed and description (AssetDefinition::new) the record is mintable. Completeness of the SNARK is assumed.
-/
import Verif.Lemmas.CompleteMintFreeze

namespace Cap

open Spec

variable [E : CapEnv] [S : CapExt]

/-- **Mints below the limit are generated and accepted.** -/
theorem C53_partial (complete : SnarkComplete) {d : Fin 256} {pk : MintProvingKey} {vk : MintVerifyingKey}
    (keys : mintPreprocess d = .ok (pk, vk)) {root : F} {fi : FeeInput} {fee : Amount}
    (pays : PaysFee d.val root fi fee) {seed : F} {desc : List Byte} {ro : RecordOpening}
    (mintable : Mintable seed desc ro) (small : ro.amount.val < 2 ^ 127) (blind : F) (rng : TransferRand) :
    ∃ info chg n sk, TxnFeeInfo.new blind fi fee = .ok (info, chg) ∧
      MintNote.generate rng ro seed desc info pk = .ok (n, sk) ∧ n.verify vk root = .ok () ∧
      n.input_nullifier = nullifierOf fi.toTransferInput ∧ n.mint_comm = ro.commitment ∧ n.mint_amount = ro.amount ∧
      n.mint_asset_def = ro.asset_def ∧ n.chg_comm = chg.commitment ∧ n.aux_info.fee = fee ∧
      chg.amount.val + fee.val = fi.ro.amount.val := by
  obtain ⟨info, chg, new⟩ := pays.info blind
  obtain ⟨hk, hd⟩ := mintPreprocess_ok keys
  have hch := mintable.checks pays new
  obtain ⟨π, hp, -⟩ := complete _ _ _ hk (.mint _ _) (mint_shape hch) (mint_sat hch small)
    (E.verKeyBytes (smulFr rng.sign_sk E.gen)) rng.seed
  have gen : MintNote.generate rng ro seed desc info pk = .ok (⟨
      (mintPubOf rng.enc_rand ro seed desc info).input_nullifier,
      info.fee_chg_ro.commitment, ro.commitment, ro.amount, ro.asset_def,
      internalCodeOfDesc seed desc, π, ViewableMemo.newForMintNote ro rng.enc_rand,
      ⟨info.fee_input.acc.root, info.fee_amount, smulFr rng.sign_sk E.gen⟩⟩, rng.sign_sk) := by
    refine MintNote.generate_ok.2 ⟨by rw [hd]; exact hch, hp, ?_, rfl, rfl, rfl⟩
    unfold MintNote.pub mintPubOf
    simp only [mintable.code]
  have hv := C18_generate keys complete gen small
  obtain ⟨h1, h2, h3, h4, -, rfl, rfl, rfl⟩ := C23_change _ _ _ _ _ new
  refine ⟨info, info.fee_chg_ro, _, _, new, gen, ?_, rfl, rfl, rfl, rfl, rfl, rfl, h1⟩
  rw [← pays.member.1]
  exact hv

/-- **The limit is exact**, if the prover refuses circuits that are not satisfied. -/
theorem C53_exact (complete : SnarkComplete) (refuses : SnarkRefuses) {d : Fin 256} {pk : MintProvingKey}
    {vk : MintVerifyingKey} (keys : mintPreprocess d = .ok (pk, vk)) {root : F} {fi : FeeInput} {fee : Amount}
    (pays : PaysFee d.val root fi fee) {seed : F} {desc : List Byte} {ro : RecordOpening}
    (mintable : Mintable seed desc ro) {blind : F} {info : TxnFeeInfo} {chg : RecordOpening}
    (new : TxnFeeInfo.new blind fi fee = .ok (info, chg)) (rng : TransferRand) :
    (∃ n sk, MintNote.generate rng ro seed desc info pk = .ok (n, sk)) ↔ ro.amount.val < 2 ^ 127 := by
  constructor
  · rintro ⟨n, sk, gen⟩
    exact (C18_generate_any keys complete refuses gen).2
  · intro small
    obtain ⟨info', chg', n, sk, new', gen, -⟩ := C53_partial complete keys pays mintable small blind rng
    rw [new] at new'
    cases new'
    exact ⟨n, sk, gen⟩

/-- **The property as stated is false**: whoever pays whatever fee, there is a mintable record (of 2^127 units) for which
no note is both generated and accepted. -/
theorem C53_false (sound : SnarkSound) {d : Fin 256} {pk : MintProvingKey} {vk : MintVerifyingKey}
    (keys : mintPreprocess d = .ok (pk, vk)) (seed : F) (desc : List Byte) (policy : AssetPolicy) (owner : UserPubKey)
    (blind : F) :
    ∃ ro : RecordOpening, Mintable seed desc ro ∧ ro.asset_def.policy = policy ∧ ro.pub_key = owner ∧
      ro.blind = blind ∧
      ∀ (rng : TransferRand) (info : TxnFeeInfo) (n : MintNote) (sk : Fr) (root : F),
        MintNote.generate rng ro seed desc info pk = .ok (n, sk) → n.verify vk root ≠ .ok () := by
  refine ⟨⟨⟨2 ^ 127, by norm_num⟩, ⟨newDomestic seed desc, policy⟩, owner, .unfrozen, blind⟩, ⟨rfl, rfl⟩, rfl, rfl, rfl, ?_⟩
  intro rng info n sk root gen ok
  have h := C18_bound keys sound ok
  rw [(C18_fields gen).1] at h
  exact absurd h (by norm_num)

omit S in
/-- **Assets declared through the API are mintable.** -/
theorem C53_declared {seed : F} {desc : List Byte} {policy : AssetPolicy} {ad : AssetDefinition}
    (declared : AssetDefinition.new (newDomestic seed desc) policy = .ok ad) (amount : Amount) (owner : UserPubKey)
    (blind : F) : Mintable seed desc ⟨amount, ad, owner, .unfrozen, blind⟩ ∧ ad.policy = policy := by
  unfold AssetDefinition.new at declared
  split at declared
  · cases declared
  · cases declared
    exact ⟨⟨rfl, rfl⟩, rfl⟩

end Cap

namespace Cap.Examples
open Toy Spec

/-- Alice's native record pays for the mint of 1000 units for Bob -/
theorem toyPays : PaysFee 1 root ⟨feeRec, acc0, alice⟩ 7 :=
  ⟨rfl, rfl, rfl, rfl, by decide +kernel, by decide +kernel⟩

example : SnarkComplete ∧ SnarkRefuses ∧ SnarkSound ∧ mintPreprocess 1 = .ok (mintPk, mintVk) ∧
    PaysFee (1 : Fin 256).val root ⟨feeRec, acc0, alice⟩ 7 ∧ Mintable seed desc mintRec ∧
    mintRec.amount.val < 2 ^ 127 ∧ AssetDefinition.new (newDomestic seed desc) policy = .ok asset :=
  ⟨complete, refuses, sound, mintKeys_eq, toyPays, ⟨rfl, rfl⟩, by decide +kernel, by decide +kernel⟩

end Cap.Examples
