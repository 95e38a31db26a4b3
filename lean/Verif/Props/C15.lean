/-
C15: a mint is always visible to its viewer.

status: partial
note: C15_partial / C15_accepted: if a record opening (a host record, so with an owner address that is a point) has the published commitment, then open_mint_viewing_memo by the policy's viewer succeeds and returns its owner, amount and blinding factor exactly as the reveal map selects, or the commitment function collides on two named inputs. (An owner equal to the neutral element is shown even if hidden by the map: C15_exact.) The property as stated is false, C15_false: for every environment and depth, anyone with a native record can have a mint accepted whose record is owned by the coordinates (0, 0), which are not on the curve; the circuit does not check this, and the viewer gets an error instead of the amount and blinding factor.
-/
import Verif.Lemmas.ForgeViewed
import Verif.Props.C45

namespace Cap

open Spec

variable [E : CapEnv] [S : CapExt]

/-- **Assignments.**  The viewer named in the policy decrypts the owner's coordinates and the blinding factor. -/
theorem C15_opened {d : ℕ} {n : MintNote} {w : MintWit} (h : OpensMint d n w) {k : ViewerKeyPair}
    (viewer : k.pubKey = n.mint_asset_def.policy.viewer_pk) (named : n.mint_asset_def.policy.viewer_pk ≠ 0) :
    k.decrypt n.viewing_memo = [w.mint_ro.owner_addr.1, w.mint_ro.owner_addr.2, w.mint_ro.blind] := by
  rcases h.sat.memo with hm | hm
  · exact absurd ((isDummyViewingPk_host _).1 hm) named
  · have hp : w.mint_ro.policy = n.mint_asset_def.policy.toV := (C45_opened h).2.2.2.2.1
    have hm' : n.pub.toV.memo = MemoV.derive w.mint_ro.policy.viewer_pk _ w.enc_rand := of_decide_eq_true hm
    rw [hp, AssetPolicy.toV, ← viewer] at hm'
    exact decrypt_derive k hm'

/-- **Records, exactly.**  Whatever record opening has the published commitment, the viewer sees its owner if the map
says so (or if the owner is the neutral element), its amount and its blinding factor if the map says so, and no
attributes; or the commitment function collides on the two openings. -/
theorem C15_exact {d : ℕ} {n : MintNote} {w : MintWit} (h : OpensMint d n w) {k : ViewerKeyPair}
    (viewer : k.pubKey = n.mint_asset_def.policy.viewer_pk) (named : n.mint_asset_def.policy.viewer_pk ≠ 0)
    (ro : RecordOpening) (hc : ro.commitment = n.mint_comm) :
    k.openMintViewingMemo n = .ok
        { asset_code := ro.asset_def.code,
          user_address := if ro.asset_def.policy.reveal_map[0] ∨ ro.pub_key.address = 0
            then some ro.pub_key.address else none,
          amount := if ro.asset_def.policy.reveal_map[2] then some ro.amount else none,
          blinding_factor := if ro.asset_def.policy.reveal_map[3] then some ro.blind else none,
          attributes := [] } ∨
      Collides commitOf (ro.scalars, ro.blind) (w.mint_ro.scalars, w.mint_ro.blind) := by
  rcases C45_records h ro hc with ⟨ha, hd, -⟩ | hcol
  · rcases reads_or_collides (hc.trans (C45_opened h).2.1.symm) with hr | hcol
    · left
      obtain ⟨-, -, h3, -, -, -, -, -, h9⟩ := reads_iff.1 hr
      unfold ViewerKeyPair.openMintViewingMemo
      rw [C15_opened h viewer named, ← h3, ← h9, ha, hd]
      simp only [List.length_cons, List.length_nil, ne_eq, not_true_eq_false, if_false, ViewableData.fromMintNote]
      have hf := fetchAddress_pt n.mint_asset_def ro.pub_key.address
      unfold ptX ptY at hf
      rw [hf]
      rfl
    · exact Or.inr hcol
  · exact Or.inr hcol

/-- **Records.**  For a record with an owner other than the neutral element, the viewer sees what the map selects. -/
theorem C15_partial {d : ℕ} {n : MintNote} {w : MintWit} (h : OpensMint d n w) {k : ViewerKeyPair}
    (viewer : k.pubKey = n.mint_asset_def.policy.viewer_pk) (named : n.mint_asset_def.policy.viewer_pk ≠ 0)
    (ro : RecordOpening) (hc : ro.commitment = n.mint_comm) (owned : ro.pub_key.address ≠ 0) :
    k.openMintViewingMemo n = .ok (viewOf n.mint_asset_def ro []) ∨
      Collides commitOf (ro.scalars, ro.blind) (w.mint_ro.scalars, w.mint_ro.blind) := by
  rcases C45_records h ro hc with ⟨-, hd, -⟩ | hcol
  · rcases C15_exact h viewer named ro hc with he | hcol
    · left
      rw [he, ← hd]
      simp only [viewOf, owned, or_false]
    · exact Or.inr hcol
  · exact Or.inr hcol

/-- **End to end.** -/
theorem C15_accepted (sound : SnarkSound) {d : Fin 256} {pk : MintProvingKey} {vk : MintVerifyingKey}
    (keys : mintPreprocess d = .ok (pk, vk)) {n : MintNote} {root : F} (ok : n.verify vk root = .ok ())
    {k : ViewerKeyPair} (viewer : k.pubKey = n.mint_asset_def.policy.viewer_pk)
    (named : n.mint_asset_def.policy.viewer_pk ≠ 0) :
    ∃ w, OpensMint d.val n w ∧
      ∀ ro : RecordOpening, ro.commitment = n.mint_comm → ro.pub_key.address ≠ 0 →
        k.openMintViewingMemo n = .ok (viewOf n.mint_asset_def ro []) ∨
          Collides commitOf (ro.scalars, ro.blind) (w.mint_ro.scalars, w.mint_ro.blind) := by
  obtain ⟨w, h⟩ := mint_opened sound keys ok
  exact ⟨w, h, C15_partial h viewer named⟩

/-! ### The owner need not be a point -/

/-- the note: its memo is a correct encryption to the viewer -/
def offCurveMint (fee_ro : RecordOpening) (k : UserKeyPair) (acc : AccV) (amount : Amount) (ad : AssetDefinition)
    (blind seed digest : F) (π : S.Proof) : MintNote :=
  ⟨spendNullifier fee_ro.toV acc (frToFq k.sk) .user, fee_ro.toV.commitment, (offCurve amount ad blind).commitment,
    amount, ad, internalCode seed digest, π, viewerEncrypt ad.policy.viewer_pk 0 [0, 0, blind],
    ⟨spendRoot fee_ro.toV acc, 0, 0⟩⟩

/-- **Negation.**  Whoever owns a native record can mint, in an asset they created and whose policy names any viewer and
reveals owner, amount and blinding factor, a record the viewer cannot see: the note is accepted, a correct assignment
exists, and opening the memo fails. -/
theorem C15_false (complete : SnarkComplete) {d : Fin 256} {pk : MintProvingKey} {vk : MintVerifyingKey}
    (keys : mintPreprocess d = .ok (pk, vk)) {fee_ro : RecordOpening} {k : UserKeyPair} {acc : AccV}
    (fee_asset : fee_ro.asset_def = AssetDefinition.native) (fee_unfrozen : fee_ro.freeze_flag = .unfrozen)
    (fee_owner : fee_ro.pub_key.address = k.address) (path : acc.path.length = d.val)
    {amount : Amount} (small : amount.val < 2 ^ 127) {policy : AssetPolicy} (reveals : policy.reveal_map[0] = true)
    (seed digest blind : F) (v : ViewerKeyPair) (viewer : v.pubKey = policy.viewer_pk) :
    ∃ (n : MintNote) (w : MintWit), n.mint_asset_def = ⟨domesticFromDigest seed digest, policy⟩ ∧
      n.mint_amount = amount ∧ OpensMint d.val n w ∧ n.verify vk (spendRoot fee_ro.toV acc) = .ok () ∧
      v.openMintViewingMemo n = .error .failedViewableMemoDecryption := by
  obtain ⟨x, hk⟩ := mintPreprocess_key keys
  let ad : AssetDefinition := ⟨domesticFromDigest seed digest, policy⟩
  let w : MintWit := ⟨offCurve amount ad blind, frToFq k.sk, fee_ro.toV, acc, fee_ro.toV, seed, digest, 0⟩
  have hmemo : (viewerEncrypt ad.policy.viewer_pk 0 [0, 0, blind]).toV =
      MemoV.derive (E.xy ad.policy.viewer_pk) [0, 0, blind] 0 := by
    unfold viewerEncrypt MemoV.derive ViewableMemo.toV
    rw [E.ecMul_xy]
    simp only [ZMod.val_zero, zero_nsmul, smulFr]
  have sat : MintSat w ⟨spendRoot fee_ro.toV acc, nativeCode, spendNullifier fee_ro.toV acc (frToFq k.sk) .user,
      Amount.toF 0, (offCurve amount ad blind).commitment, fee_ro.toV.commitment, Amount.toF amount, ad.code,
      internalCode seed digest, ad.policy.toV, (viewerEncrypt ad.policy.viewer_pk 0 [0, 0, blind]).toV⟩ :=
    { memo_len := rfl, mint_rc := rfl, chg_rc := rfl, internal := rfl
      balance := by
        show Amount.toF 0 + Amount.toF fee_ro.amount = Amount.toF fee_ro.amount
        rw [Amount.toF_zero, zero_add]
      spend := (SpendOk_user_host _ _).2 fee_owner
      root := rfl, nullifier := rfl, mint_unfrozen := rfl
      fee_unfrozen := FreezeFlag.toBool_eq_false.2 fee_unfrozen
      chg_unfrozen := FreezeFlag.toBool_eq_false.2 fee_unfrozen
      mint_range := by
        show (Amount.toF amount).val < 2 ^ 127
        rw [Amount.toF_val]; exact small
      mint_amount := rfl, mint_code := rfl
      mint_policy := PolicyV.enforceEqual_iff.2 rfl
      chg_code := (native_toV fee_asset).1, fee_code := (native_toV fee_asset).1
      chg_policy := PolicyV.enforceDummy_iff.2 (native_toV fee_asset).2
      fee_policy := PolicyV.enforceDummy_iff.2 (native_toV fee_asset).2
      same_owner := rfl
      rand_ok := Forgery.zero_ok
      memo := Or.inr (decide_eq_true hmemo) }
  obtain ⟨π, -, hv⟩ := complete _ _ _ hk (.mint w _) ⟨path, rfl⟩ sat (E.verKeyBytes 0) 0
  refine ⟨offCurveMint fee_ro k acc amount ad blind seed digest π, w, rfl, rfl, ⟨⟨path, rfl⟩, sat⟩,
    MintNote.verify_ok.2 ⟨rfl, rfl, hv⟩, ?_⟩
  unfold ViewerKeyPair.openMintViewingMemo
  have hdec : v.decrypt (viewerEncrypt ad.policy.viewer_pk 0 [0, 0, blind]) = [0, 0, blind] := by
    have := decrypt_encrypt v 0 [0, 0, blind]
    rwa [viewer] at this
  show (if (v.decrypt (viewerEncrypt ad.policy.viewer_pk 0 [0, 0, blind])).length ≠ 3 then _ else
    ViewableData.fromMintNote (v.decrypt (viewerEncrypt ad.policy.viewer_pk 0 [0, 0, blind])) _) = _
  rw [hdec]
  simp only [List.length_cons, List.length_nil, ne_eq, not_true_eq_false, if_false, ViewableData.fromMintNote]
  have hf := fetchAddress_zero ad
  rw [show ad.policy.reveal_map[0] = true from reveals, if_pos rfl] at hf
  show (do let _ ← ViewableData.fetchAddress 0 0 ad; _) = _
  rw [hf]
  rfl

end Cap

namespace Cap.Examples
open Toy Spec

/-- the example mint: the policy names a viewer and the minted record is Bob's -/
example : mintNote.verify mintVk mintNote.aux_info.merkle_root = .ok () ∧ mintRec.commitment = mintNote.mint_comm ∧
    viewer.pubKey = mintNote.mint_asset_def.policy.viewer_pk ∧ mintNote.mint_asset_def.policy.viewer_pk ≠ 0 ∧
    mintRec.pub_key.address ≠ 0 := by
  refine ⟨mintNote_verify, ?_, ?_, ?_, ?_⟩ <;> decide +kernel
/-- what its viewer sees -/
example : viewer.openMintViewingMemo mintNote = .ok ⟨asset.code, some bob.address, some 1000, some 44, []⟩ := by
  decide +kernel
/-- the hypotheses of the negation: Alice's native record, the policy of the example asset -/
example : ∃ (n : MintNote) (w : MintWit), OpensMint 1 n w ∧ n.verify mintVk (spendRoot feeRec.toV acc0.toV) = .ok () ∧
    viewer.openMintViewingMemo n = .error .failedViewableMemoDecryption := by
  obtain ⟨n, w, -, -, h⟩ := C15_false Toy.complete mintKeys_eq (fee_ro := feeRec) (k := alice) (acc := acc0.toV)
    (by decide +kernel) rfl rfl rfl (amount := 5) (by decide) (policy := policy) (by decide +kernel) 1 2 3 viewer rfl
  exact ⟨n, w, h⟩

end Cap.Examples
