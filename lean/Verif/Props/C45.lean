/-
C45: only the creator mints: the minted code belongs to the prover's seed.

status: proved
note: Every satisfying assignment of the mint circuit together with the library's domestic check. C45_accepted (end to end): the code is the domestic code of the seed and digest in the prover's assignment; whatever record opening has the published commitment has exactly the published amount, asset definition and is unfrozen, or the commitment function collides on two named inputs. C45_change: the other record of the note is native. C45_creator: if the code was made by newDomestic from a seed and a description, the prover's seed and digest are these, or Keccak or the PRF collides on named inputs. C45_native / C45_dummy: minting the native or dummy code is a named Keccak preimage of 1 or 2. MintNote::verify is meant; batch verification skips the domestic check (C21).
-/
import Verif.Lemmas.Opened
import Verif.Props.C18
import Verif.Props.C34

namespace Cap

open Spec

variable [E : CapEnv] [S : CapExt]

/-- **Assignments.**  The minted record has the published commitment, amount, code and policy, is unfrozen, and its
amount is below `2^127`; the published internal code is derived from the seed and digest of the assignment. -/
theorem C45_opened {d : ℕ} {n : MintNote} {w : MintWit} (h : OpensMint d n w) :
    n.mint_internal_asset_code = internalCode w.ac_seed w.ac_digest ∧
      w.mint_ro.commitment = n.mint_comm ∧ w.mint_ro.amount = Amount.toF n.mint_amount ∧
      w.mint_ro.asset_code = n.mint_asset_def.code ∧ w.mint_ro.policy = n.mint_asset_def.policy.toV ∧
      w.mint_ro.freeze_flag = false ∧ n.mint_amount.val < 2 ^ 127 := by
  refine ⟨h.sat.internal.symm, h.sat.mint_rc, h.sat.mint_amount, h.sat.mint_code,
    (PolicyV.enforceEqual_iff.1 h.sat.mint_policy).symm, h.sat.mint_unfrozen, ?_⟩
  have := h.sat.mint_range
  rw [h.sat.mint_amount] at this
  have h2 : (Amount.toF n.mint_amount).val < 2 ^ 127 := this
  rwa [Amount.toF_val] at h2

/-- **Records.**  A record opening with the published commitment has exactly the published amount and asset definition
and is unfrozen, or the commitment function collides on the two openings. -/
theorem C45_records {d : ℕ} {n : MintNote} {w : MintWit} (h : OpensMint d n w) (ro : RecordOpening)
    (hc : ro.commitment = n.mint_comm) :
    (ro.amount = n.mint_amount ∧ ro.asset_def = n.mint_asset_def ∧ ro.freeze_flag = .unfrozen) ∨
      Collides commitOf (ro.scalars, ro.blind) (w.mint_ro.scalars, w.mint_ro.blind) := by
  obtain ⟨-, h2, h3, h4, h5, h6, -⟩ := C45_opened h
  rcases reads_or_collides (hc.trans h2.symm) with hr | hcol
  · left
    have hm : w.mint_ro.policy.reveal_map.val < 2 ^ 12 := by
      rw [h5]
      show (RevealMap.toScalar _).val < _
      rw [RevealMap.toScalar_val]
      exact RevealMap.toNat_lt _
    have e := reads_small hr hm
    rw [e] at h3 h4 h5 h6
    refine ⟨Amount.toF_inj h3, ?_, FreezeFlag.toBool_eq_false.1 h6⟩
    have e1 : ro.asset_def.code = n.mint_asset_def.code := h4
    have e2 : ro.asset_def.policy = n.mint_asset_def.policy := AssetPolicy.toV_inj h5
    rcases ha : ro.asset_def with ⟨ca, pa⟩
    rcases hb : n.mint_asset_def with ⟨cb, pb⟩
    rw [ha, hb] at e1 e2
    simp only at e1 e2
    rw [e1, e2]
  · exact Or.inr hcol

/-- **End to end.**  Of an accepted mint note: the minted code is the domestic code of a seed and digest in the prover's
assignment, and every opening of the published commitment is the published record (or a named collision). -/
theorem C45_accepted (sound : SnarkSound) {d : Fin 256} {pk : MintProvingKey} {vk : MintVerifyingKey}
    (keys : mintPreprocess d = .ok (pk, vk)) {n : MintNote} {root : F} (ok : n.verify vk root = .ok ()) :
    ∃ w, OpensMint d.val n w ∧ n.mint_asset_def.code = domesticFromDigest w.ac_seed w.ac_digest ∧
      n.mint_amount.val < 2 ^ 127 ∧
      ∀ ro : RecordOpening, ro.commitment = n.mint_comm →
        (ro.amount = n.mint_amount ∧ ro.asset_def = n.mint_asset_def ∧ ro.freeze_flag = .unfrozen) ∨
          Collides commitOf (ro.scalars, ro.blind) (w.mint_ro.scalars, w.mint_ro.blind) := by
  obtain ⟨w, h⟩ := mint_opened sound keys ok
  obtain ⟨-, hd, -⟩ := MintNote.verify_ok.1 ok
  obtain ⟨h1, -, -, -, -, -, h7⟩ := C45_opened h
  refine ⟨w, h, ?_, h7, C45_records h⟩
  rw [hd, h1]
  rfl

/-- **The other record of the note**, the change, is native: a mint brings no asset into being but the one it publishes. -/
theorem C45_change (sound : SnarkSound) {d : Fin 256} {pk : MintProvingKey} {vk : MintVerifyingKey}
    (keys : mintPreprocess d = .ok (pk, vk)) {n : MintNote} {root : F} (ok : n.verify vk root = .ok ()) :
    ∃ w, OpensMint d.val n w ∧ ∀ ro : RecordOpening, ro.commitment = n.chg_comm →
      ro.asset_def.code = nativeCode ∨ Collides commitOf (ro.scalars, ro.blind) (w.chg_ro.scalars, w.chg_ro.blind) := by
  obtain ⟨w, h⟩ := mint_opened sound keys ok
  refine ⟨w, h, fun ro hc => ?_⟩
  rcases reads_or_collides (hc.trans h.sat.chg_rc.symm) with hr | hcol
  · exact .inl ((reads_iff.1 hr).2.1.trans h.sat.chg_code)
  · exact .inr hcol

/-- the internal code as a function of one argument -/
def internalOf (x : F × F) : F := internalCode x.1 x.2

/-- **The creator.**  An accepted mint of the asset that was created from `seed` and `desc`: the prover's assignment
contains this seed and the description's digest, or it exhibits a collision of Keccak or of the PRF with the creator's
values. -/
theorem C45_creator (sound : SnarkSound) {d : Fin 256} {pk : MintProvingKey} {vk : MintVerifyingKey}
    (keys : mintPreprocess d = .ok (pk, vk)) {n : MintNote} {root : F} (ok : n.verify vk root = .ok ())
    {seed : F} {desc : List Byte} (hc : n.mint_asset_def.code = newDomestic seed desc) :
    ∃ w, OpensMint d.val n w ∧
      ((w.ac_seed = seed ∧ w.ac_digest = E.descDigest desc) ∨
        Collides internalOf (w.ac_seed, w.ac_digest) (seed, E.descDigest desc) ∨
        Collides E.keccakField (DOM_SEP_DOMESTIC ++ fToBytes (internalCode w.ac_seed w.ac_digest))
          (DOM_SEP_DOMESTIC ++ fToBytes (internalCode seed (E.descDigest desc)))) := by
  obtain ⟨w, h, hcode, -⟩ := C45_accepted sound keys ok
  refine ⟨w, h, ?_⟩
  rw [hc] at hcode
  by_cases h1 : internalCode w.ac_seed w.ac_digest = internalCode seed (E.descDigest desc)
  · by_cases h2 : (w.ac_seed, w.ac_digest) = (seed, E.descDigest desc)
    · rw [Prod.mk.injEq] at h2
      exact Or.inl h2
    · exact Or.inr (Or.inl ⟨h2, h1⟩)
  · exact Or.inr (Or.inr ⟨fun he => h1 (fToBytes_inj (List.append_cancel_left he)), hcode.symm⟩)

/-- **Two mints of one asset** come from the same internal code, or from a named Keccak collision. -/
theorem C45_same_asset {vk vk' : MintVerifyingKey} {n n' : MintNote} {root root' : F}
    (ok : n.verify vk root = .ok ()) (ok' : n'.verify vk' root' = .ok ())
    (hc : n.mint_asset_def.code = n'.mint_asset_def.code) :
    n.mint_internal_asset_code = n'.mint_internal_asset_code ∨
      Collides E.keccakField (DOM_SEP_DOMESTIC ++ fToBytes n.mint_internal_asset_code)
        (DOM_SEP_DOMESTIC ++ fToBytes n'.mint_internal_asset_code) := by
  obtain ⟨-, hd, -⟩ := MintNote.verify_ok.1 ok
  obtain ⟨-, hd', -⟩ := MintNote.verify_ok.1 ok'
  by_cases h1 : n.mint_internal_asset_code = n'.mint_internal_asset_code
  · exact Or.inl h1
  · exact Or.inr ⟨fun he => h1 (fToBytes_inj (List.append_cancel_left he)), hd.symm.trans (hc.trans hd')⟩

/-- **Native and dummy coins** can only be minted by who knows a Keccak preimage of 1 or 2 of the given form. -/
theorem C45_native {vk : MintVerifyingKey} {n : MintNote} {root : F} (ok : n.verify vk root = .ok ()) :
    (n.mint_asset_def.code = nativeCode →
      E.keccakField (DOM_SEP_DOMESTIC ++ fToBytes n.mint_internal_asset_code) = 1) ∧
    (n.mint_asset_def.code = dummyCode →
      E.keccakField (DOM_SEP_DOMESTIC ++ fToBytes n.mint_internal_asset_code) = 2) := by
  obtain ⟨-, hd, -⟩ := MintNote.verify_ok.1 ok
  exact ⟨fun h => hd.symm.trans h, fun h => hd.symm.trans h⟩

end Cap

namespace Cap.Examples
open Toy Spec

/-- the example mint: its record opens the published commitment, and its code was made from `seed` and `desc` -/
example : mintNote.verify mintVk mintNote.aux_info.merkle_root = .ok () ∧ mintRec.commitment = mintNote.mint_comm ∧
    mintNote.mint_asset_def.code = newDomestic seed desc ∧ mintNote.mint_amount = 1000 := by
  refine ⟨mintNote_verify, ?_, ?_, ?_⟩ <;> decide +kernel
/-- the conclusion for that note -/
example : ∃ w, OpensMint 1 mintNote w ∧ mintNote.mint_asset_def.code = domesticFromDigest w.ac_seed w.ac_digest := by
  obtain ⟨w, h1, h2, -⟩ := C45_accepted Toy.sound mintKeys_eq mintNote_verify
  exact ⟨w, h1, h2⟩

/-- the change of that note is the native record `chgRec` -/
example : chgRec.commitment = mintNote.chg_comm ∧ chgRec.asset_def.code = nativeCode := by
  refine ⟨?_, ?_⟩ <;> decide +kernel

end Cap.Examples
