/-
C66: the memo of a mint discloses to the viewer only what the policy reveals.

status: partial
note: C66_partial: what the library's function for opening the memo returns depends only on the fields that the map reveals (and on whether the owner is the neutral address). The memo itself discloses everything: C66_false (every mint the library makes for a policy with a viewer, whatever its map) and C66_accepted_false (every accepted one, under SnarkSound): the viewer's key decrypts the owner's address and the blinding factor, and two mints that differ only in hidden fields have different plaintexts. Unlike transfers (C14_hides), no field is masked.
-/
import Verif.Props.C15
import Verif.Props.C18

namespace Cap

open Spec

variable [E : CapEnv] [S : CapExt]

/-- the plaintext of a mint that the library makes -/
theorem mint_plaintext {rng : TransferRand} {mint_ro : RecordOpening} {ac_seed : F} {desc : List Byte} {fee : TxnFeeInfo}
    {pk : MintProvingKey} {n : MintNote} {sk : Fr}
    (gen : MintNote.generate rng mint_ro ac_seed desc fee pk = .ok (n, sk)) {k : ViewerKeyPair}
    (viewer : k.pubKey = mint_ro.asset_def.policy.viewer_pk) (named : mint_ro.asset_def.policy.viewer_pk ≠ 0) :
    k.decrypt n.viewing_memo = [ptX mint_ro.pub_key.address, ptY mint_ro.pub_key.address, mint_ro.blind] := by
  have h := MintNote.generate_ok.1 gen
  have hm : n.viewing_memo = (mintPubOf rng.enc_rand mint_ro ac_seed desc fee).viewing_memo := by rw [← h.pub]; rfl
  rw [hm]
  show k.decrypt (ViewableMemo.newForMintNote mint_ro rng.enc_rand) = _
  unfold ViewableMemo.newForMintNote
  dsimp only
  rw [if_neg named, ← viewer, decrypt_encrypt]

/-- **What is shown.**  Two mints of the same amount of an asset, to owners that are equal if the map reveals addresses (and
otherwise not the neutral one), with the same blinding factor if the map reveals it, look the same to a viewer who uses the
library's function. -/
theorem C66_partial {rng rng' : TransferRand} {ro ro' : RecordOpening} {ac_seed ac_seed' : F} {desc desc' : List Byte}
    {fee fee' : TxnFeeInfo} {pk pk' : MintProvingKey} {n n' : MintNote} {sk sk' : Fr}
    (gen : MintNote.generate rng ro ac_seed desc fee pk = .ok (n, sk))
    (gen' : MintNote.generate rng' ro' ac_seed' desc' fee' pk' = .ok (n', sk')) (asset : ro.asset_def = ro'.asset_def)
    (amount : ro.asset_def.policy.reveal_map[2] = true → ro.amount = ro'.amount)
    (owner : if ro.asset_def.policy.reveal_map[0] then ro.pub_key.address = ro'.pub_key.address
      else ro.pub_key.address ≠ 0 ∧ ro'.pub_key.address ≠ 0)
    (blind : ro.asset_def.policy.reveal_map[3] = true → ro.blind = ro'.blind) {k : ViewerKeyPair}
    (viewer : k.pubKey = ro.asset_def.policy.viewer_pk) (named : ro.asset_def.policy.viewer_pk ≠ 0) :
    k.openMintViewingMemo n = k.openMintViewingMemo n' := by
  have d1 := mint_plaintext gen viewer named
  have d2 := mint_plaintext gen' (k := k) (by rw [← asset]; exact viewer) (by rw [← asset]; exact named)
  obtain ⟨a1, b1, -⟩ := C18_fields gen
  obtain ⟨a2, b2, -⟩ := C18_fields gen'
  unfold ViewerKeyPair.openMintViewingMemo
  rw [d1, d2]
  simp only [List.length_cons, List.length_nil, Nat.zero_add, Nat.reduceAdd, ne_eq, not_true_eq_false, if_false,
    ViewableData.fromMintNote, fetchAddress_pt, a1, a2, b1, b2, ← asset, ViewableData.fetchBlindFactor,
    RevealMap.isBlindingFactorRevealed, RevealMap.isAmountRevealed]
  have h1 : (if ro.asset_def.policy.reveal_map[0] = true ∨ ro.pub_key.address = 0 then some ro.pub_key.address else none) =
      if ro.asset_def.policy.reveal_map[0] = true ∨ ro'.pub_key.address = 0 then some ro'.pub_key.address else none := by
    cases hb : ro.asset_def.policy.reveal_map[0] with
    | true => rw [hb, if_pos rfl] at owner; rw [owner]
    | false =>
      rw [hb] at owner
      simp only [Bool.false_eq_true, if_false] at owner
      simp [owner.1, owner.2]
  have h2 : (if ro.asset_def.policy.reveal_map[2] = true then some ro.amount else none) =
      if ro.asset_def.policy.reveal_map[2] = true then some ro'.amount else none := by
    split
    · rename_i hb; rw [amount hb]
    · rfl
  have h3 : (if ro.asset_def.policy.reveal_map[3] = true then some ro.blind else none) =
      if ro.asset_def.policy.reveal_map[3] = true then some ro'.blind else none := by
    split
    · rename_i hb; rw [blind hb]
    · rfl
  rw [h1, h2, h3]

/-- **Negation.**  Whatever the map, the viewer's key decrypts the memo of a mint to owner and blinding factor; so mints to
different owners, or with different blinding factors, have different plaintexts. -/
theorem C66_false {rng rng' : TransferRand} {ro ro' : RecordOpening} {ac_seed ac_seed' : F} {desc desc' : List Byte}
    {fee fee' : TxnFeeInfo} {pk pk' : MintProvingKey} {n n' : MintNote} {sk sk' : Fr}
    (gen : MintNote.generate rng ro ac_seed desc fee pk = .ok (n, sk))
    (gen' : MintNote.generate rng' ro' ac_seed' desc' fee' pk' = .ok (n', sk')) (asset : ro.asset_def = ro'.asset_def)
    {k : ViewerKeyPair} (viewer : k.pubKey = ro.asset_def.policy.viewer_pk) (named : ro.asset_def.policy.viewer_pk ≠ 0)
    (different : ro.pub_key.address ≠ ro'.pub_key.address ∨ ro.blind ≠ ro'.blind) :
    k.decrypt n.viewing_memo = [ptX ro.pub_key.address, ptY ro.pub_key.address, ro.blind] ∧
      k.decrypt n.viewing_memo ≠ k.decrypt n'.viewing_memo := by
  have d1 := mint_plaintext gen viewer named
  have d2 := mint_plaintext gen' (k := k) (by rw [← asset]; exact viewer) (by rw [← asset]; exact named)
  refine ⟨d1, ?_⟩
  rw [d1, d2]
  intro e
  simp only [List.cons.injEq, and_true] at e
  rcases different with h | h
  · exact h (pt_xy_inj e.1 e.2.1)
  · exact h e.2.2

/-- **Negation, for every accepted mint**: the circuit insists that the memo discloses owner and blinding factor. -/
theorem C66_accepted_false (sound : SnarkSound) {d : Fin 256} {pk : MintProvingKey} {vk : MintVerifyingKey}
    (keys : mintPreprocess d = .ok (pk, vk)) {n : MintNote} {root : F} (ok : n.verify vk root = .ok ())
    {k : ViewerKeyPair} (viewer : k.pubKey = n.mint_asset_def.policy.viewer_pk)
    (named : n.mint_asset_def.policy.viewer_pk ≠ 0) :
    ∃ w, OpensMint d.val n w ∧ ∀ ro : RecordOpening, ro.commitment = n.mint_comm →
      k.decrypt n.viewing_memo = [ptX ro.pub_key.address, ptY ro.pub_key.address, ro.blind] ∨
        Collides commitOf (ro.scalars, ro.blind) (w.mint_ro.scalars, w.mint_ro.blind) := by
  obtain ⟨w, h⟩ := mint_opened sound keys ok
  refine ⟨w, h, fun ro hc => ?_⟩
  rcases reads_or_collides (hc.trans (C45_opened h).2.1.symm) with hr | hcol
  · left
    obtain ⟨-, -, h3, -, -, -, -, -, h9⟩ := reads_iff.1 hr
    rw [C15_opened h viewer named, ← h3, ← h9]
    rfl
  · exact Or.inr hcol

end Cap

namespace Cap.Examples
open Toy Spec

/-- an asset whose policy names a viewer and reveals nothing to them -/
def shyAsset : AssetDefinition :=
  ⟨asset.code, { policy with reveal_map := #v[false, false, false, false, false, false, false, false, false, false, false, false] }⟩

/-- two mints of it, for Bob and for Alice: the library shows the viewer nothing of either, but the plaintexts are the
owners and blinding factors -/
example : ∃ n n' sk sk',
    MintNote.generate rng ⟨1000, shyAsset, bob.pubKey, .unfrozen, 44⟩ seed desc feeInfo mintPk = .ok (n, sk) ∧
    MintNote.generate rng ⟨1000, shyAsset, alice.pubKey, .unfrozen, 45⟩ seed desc feeInfo mintPk = .ok (n', sk') ∧
    viewer.openMintViewingMemo n = .ok ⟨shyAsset.code, none, none, none, []⟩ ∧
    viewer.openMintViewingMemo n' = .ok ⟨shyAsset.code, none, none, none, []⟩ ∧
    viewer.decrypt n.viewing_memo = [ptX bob.address, ptY bob.address, 44] ∧
    viewer.decrypt n.viewing_memo ≠ viewer.decrypt n'.viewing_memo := by
  have g1 : isOk (MintNote.generate rng ⟨1000, shyAsset, bob.pubKey, .unfrozen, 44⟩ seed desc feeInfo mintPk) = true := by
    decide +kernel
  have g2 : isOk (MintNote.generate rng ⟨1000, shyAsset, alice.pubKey, .unfrozen, 45⟩ seed desc feeInfo mintPk) = true := by
    decide +kernel
  have e1 := okVal_eq2 _ g1
  have e2 := okVal_eq2 _ g2
  have hp := C66_partial e1 e2 rfl (by decide +kernel) (by decide +kernel) (by decide +kernel) (k := viewer) rfl
    (by decide +kernel)
  have hf := C66_false e1 e2 rfl (k := viewer) rfl (by decide +kernel) (Or.inl (by decide +kernel))
  have ho : viewer.openMintViewingMemo (okVal _ g1).1 = .ok ⟨shyAsset.code, none, none, none, []⟩ := by
    decide +kernel +revert
  exact ⟨_, _, _, _, e1, e2, ho, hp ▸ ho, hf⟩

/-- an accepted mint for the other negation -/
example : mintNote.verify mintVk mintNote.aux_info.merkle_root = .ok () ∧ mintRec.commitment = mintNote.mint_comm ∧
    viewer.pubKey = mintNote.mint_asset_def.policy.viewer_pk ∧ mintNote.mint_asset_def.policy.viewer_pk ≠ 0 :=
  ⟨mintNote_verify, by decide +kernel, by decide +kernel, by decide +kernel⟩

end Cap.Examples
