/-
C18 Generated mints verify
status: proved
note: Mintable means an amount below 2^127. C18_generate needs completeness only; C18_generate_any replaces the bound by "the prover refuses unsatisfied circuits"; C18_bound shows that no verifying mint exceeds the bound.
-/
import Verif.Lemmas.GenerateMintFreeze
import Verif.Model.ToyNotes

namespace Cap

variable [E : CapEnv] [S : CapExt]

/-- `mint::preprocess` returns keys for the requested depth -/
theorem mintPreprocess_ok {d : Fin 256} {pk : MintProvingKey} {vk : MintVerifyingKey}
    (h : mintPreprocess d = .ok (pk, vk)) :
    S.preprocess (.mint d.val) = some (pk.key, vk.key) ∧ pk.tree_depth = d := by
  unfold mintPreprocess at h
  split at h
  · cases h
  · rename_i hs
    cases h
    exact ⟨hs, rfl⟩

/-- A note returned by `MintNote::generate` for an amount below `2^127` is accepted by `MintNote::verify` with the
matching key and its own Merkle root. -/
theorem C18_generate {d : Fin 256} {pk : MintProvingKey} {vk : MintVerifyingKey}
    (keys : mintPreprocess d = .ok (pk, vk)) (complete : SnarkComplete)
    {rng : TransferRand} {mint_ro : RecordOpening} {ac_seed : F} {desc : List Byte} {fee : TxnFeeInfo}
    {n : MintNote} {sk : Fr} (gen : MintNote.generate rng mint_ro ac_seed desc fee pk = .ok (n, sk))
    (mintable : mint_ro.amount.val < 2 ^ 127) :
    n.verify vk n.aux_info.merkle_root = .ok () := by
  have h := MintNote.generate_ok.1 gen
  obtain ⟨hk, hd⟩ := mintPreprocess_ok keys
  rw [MintNote.verify_ok]
  exact ⟨rfl, h.domestic.symm, h.verifies complete (by rw [hd]; exact hk) mintable⟩

/-- If the prover refuses circuits that are not satisfied, every note `MintNote::generate` returns verifies (and the
amount was below `2^127`). -/
theorem C18_generate_any {d : Fin 256} {pk : MintProvingKey} {vk : MintVerifyingKey}
    (keys : mintPreprocess d = .ok (pk, vk)) (complete : SnarkComplete) (refuses : SnarkRefuses)
    {rng : TransferRand} {mint_ro : RecordOpening} {ac_seed : F} {desc : List Byte} {fee : TxnFeeInfo}
    {n : MintNote} {sk : Fr} (gen : MintNote.generate rng mint_ro ac_seed desc fee pk = .ok (n, sk)) :
    n.verify vk n.aux_info.merkle_root = .ok () ∧ mint_ro.amount.val < 2 ^ 127 := by
  have h := MintNote.generate_ok.1 gen
  obtain ⟨hk, hd⟩ := mintPreprocess_ok keys
  rw [← hd] at hk
  have hsat := refuses _ _ _ hk (.mint _ _) _ _ _ (mint_shape h.checks) trivial h.prove
  have hr : MintSat _ _ := hsat
  have := hr.mint_range
  have hb : mint_ro.amount.val < 2 ^ 127 := by
    unfold InRange AMOUNT_LEN at this
    rwa [show (mintWitnessOf rng.enc_rand mint_ro ac_seed desc fee).toV.mint_ro.amount = Amount.toF mint_ro.amount
      from rfl, Amount.toF_val] at this
  exact ⟨C18_generate keys complete gen hb, hb⟩

/-- The published fields of a generated mint note are those of the minted record. -/
theorem C18_fields {pk : MintProvingKey} {rng : TransferRand} {mint_ro : RecordOpening} {ac_seed : F}
    {desc : List Byte} {fee : TxnFeeInfo} {n : MintNote} {sk : Fr}
    (gen : MintNote.generate rng mint_ro ac_seed desc fee pk = .ok (n, sk)) :
    n.mint_amount = mint_ro.amount ∧ n.mint_asset_def = mint_ro.asset_def ∧ n.mint_comm = mint_ro.commitment ∧
      n.chg_comm = fee.fee_chg_ro.commitment ∧ n.aux_info.fee = fee.fee_amount ∧
      n.aux_info.merkle_root = fee.fee_input.acc.root ∧ mint_ro.asset_def.code = newDomestic ac_seed desc := by
  have h := MintNote.generate_ok.1 gen
  have hp := h.pub
  exact ⟨congrArg MintPublicInput.mint_amount hp, h.asset, congrArg MintPublicInput.mint_rc hp,
    congrArg MintPublicInput.chg_rc hp, congrArg MintPublicInput.fee hp, congrArg MintPublicInput.merkle_root hp,
    h.checks.code⟩

/-- The bound is needed: whatever the note, a mint of `2^127` or more never verifies (if the proof system is sound). -/
theorem C18_bound {d : Fin 256} {pk : MintProvingKey} {vk : MintVerifyingKey}
    (keys : mintPreprocess d = .ok (pk, vk)) (sound : SnarkSound) {n : MintNote} {root : F}
    (ok : n.verify vk root = .ok ()) : n.mint_amount.val < 2 ^ 127 := by
  obtain ⟨hk, -⟩ := mintPreprocess_ok keys
  obtain ⟨-, -, hv⟩ := MintNote.verify_ok.1 ok
  obtain ⟨inst, h1, h2, h3⟩ := sound _ _ _ hk _ _ _ hv
  cases inst with
  | transfer w p => exact h1.elim
  | freeze w p => exact h1.elim
  | mint w p =>
    have h2 : MintSat w p := h2
    have hr := h2.mint_range
    rw [h2.mint_amount] at hr
    have h3 : p.toScalars = n.pub.toScalars := h3
    have : p.mint_amount = Amount.toF n.mint_amount := by
      simp only [MintPub.toScalars, MintPublicInput.toScalars, List.cons_append, List.cons.injEq] at h3
      exact h3.2.2.2.2.2.2.1
    rw [this] at hr
    unfold InRange AMOUNT_LEN at hr
    rwa [Amount.toF_val] at hr

end Cap

namespace Cap.Toy

theorem mintNote_verify : mintNote.verify mintVk mintNote.aux_info.merkle_root = .ok () :=
  C18_generate mintKeys_eq complete mintNote_eq (by decide +kernel)

end Cap.Toy

namespace Cap.Examples
open Toy

/-- a mint of 1000 units meets the hypotheses -/
example : mintPreprocess 1 = .ok (mintPk, mintVk) ∧ SnarkComplete ∧ SnarkRefuses ∧ SnarkSound ∧
    MintNote.generate rng mintRec seed desc feeInfo mintPk = .ok (mintNote, mintSk) ∧
    mintRec.amount.val < 2 ^ 127 ∧ mintNote.verify mintVk mintNote.aux_info.merkle_root = .ok () :=
  ⟨mintKeys_eq, complete, refuses, sound, mintNote_eq, by decide +kernel, mintNote_verify⟩

end Cap.Examples
