/-
C04: spending a credentialed asset needs a credential from the policy's issuer for the owner.

status: partial
note: FALSE of the code: the circuit checks a credential against the issuer key inside the credential, which it never compares with the policy's issuer, and never compares the credential's user with the record's owner; TransferNote::generate does not either. C04_false: for every instantiation and every issuer key, a record is spent in an accepted note with a credential signed with the secret key 0 for nobody. C04_generate_false: the library's own check accepts a credential of any issuer for any user. C04_partial: some unexpired, validly signed credential is needed. C04_generated_partial: the same for generated notes.
-/
import Verif.Lemmas.Forge
import Verif.Lemmas.Opened
import Verif.Props.C17

namespace Cap

open Spec

variable [E : CapEnv] [S : CapExt]

/-- **Negation.**  Take any record whose policy names an issuer `K` (and no viewer).  Its owner can make an accepted
note that spends it and whose credentials all carry the neutral issuer key, not `K`, and the neutral user, not the
owner. -/
theorem C04_false (complete : SnarkComplete) {d : Fin 256} (hd : d.val ≠ 0)
    {pk : TransferProvingKey} {vk : TransferVerifyingKey} (keys : transferPreprocess 2 2 d = .ok (pk, vk))
    {fee_ro ro : RecordOpening} {k0 k1 : UserKeyPair}
    (fee_asset : fee_ro.asset_def = AssetDefinition.native) (fee_unfrozen : fee_ro.freeze_flag = .unfrozen)
    (fee_owner : fee_ro.pub_key.address = k0.address) (fee_small : fee_ro.amount.val < 2 ^ 127)
    (ro_unfrozen : ro.freeze_flag = .unfrozen) (ro_owner : ro.pub_key.address = k1.address)
    (owner_ne : ro.pub_key.address ≠ 0) (ro_code : ro.asset_def.code ≠ dummyCode)
    (ro_viewer : ro.asset_def.policy.viewer_pk = 0) (issuer : ro.asset_def.policy.cred_pk ≠ 0)
    (ro_small : ro.amount.val < 2 ^ 127) :
    ∃ n w, OpensTransfer 2 2 d.val n w ∧ (∀ t, n.verify vk n.aux_info.merkle_root t = .ok ()) ∧
      (∃ i ∈ w.inputs, i.ro = ro.toV) ∧
      ∀ i ∈ w.inputs, i.cred.creator_pk ≠ E.xy ro.asset_def.policy.cred_pk ∧
        i.cred.user_addr ≠ E.xy ro.pub_key.address := by
  obtain ⟨n, w, h1, h2, h3, -, -, h4⟩ := hosts_accepted complete hd keys (fee_ro := fee_ro) (ro := ro) (chg := fee_ro)
    (out := ro) fee_asset fee_unfrozen fee_owner
    ro_unfrozen ro_owner ro_code ro_viewer fee_asset fee_unfrozen rfl fee_small rfl ro_unfrozen rfl ro_small
  refine ⟨n, w, h1, h2, ?_, ?_⟩
  · have : ro.toV ∈ w.inputs.map (·.ro) := by rw [h3]; simp
    obtain ⟨i, hi, he⟩ := List.mem_map.1 this
    exact ⟨i, hi, he⟩
  · intro i hi
    obtain ⟨c1, c2⟩ := h4 i hi
    rw [c1, c2]
    exact ⟨fun h => issuer (xy_eq_neutral.1 h.symm), fun h => owner_ne (xy_eq_neutral.1 h.symm)⟩

omit S in
/-- **Negation for the library's own check.**  Whatever issuer a record's policy names and whoever owns it,
`check_creds` accepts a credential made by any issuer for any user, as long as it has not expired. -/
theorem C04_generate_false (i : TransferNoteInput) (valid_until expiry : U64) (sk : Fr) (user : Pt)
    (attrs : List IdentityAttribute) (hl : attrs.length = ATTRS_LEN) (he : valid_until ≤ expiry) :
    ∃ c, ExpirableCredential.create user attrs expiry sk = .ok c ∧
      transferCheckCreds valid_until [{ i with cred := some c }] = .ok () := by
  refine ⟨_, by rw [ExpirableCredential.create, if_neg (by simpa using hl)], ?_⟩
  simp only [transferCheckCreds, transferCheckCred]
  by_cases hk : i.ro.asset_def.policy.cred_pk = 0
  · simp only [hk, ne_eq, not_true, if_false]; rfl
  · have hs := E.schnorr_correct sk (ExpirableCredential.msg expiry user attrs)
    have hx : ¬ expiry < valid_until := not_lt.2 he
    simp only [ne_eq, hk, not_false_eq_true, if_true, ExpirableCredential.verify, ExpirableCredential.isExpired,
      hx, decide_false, Bool.false_eq_true, if_false, smulFr, hs]
    rfl

/-- **What holds of accepted notes.**  For every spent record with a credential issuer the assignment contains a
credential of eight attributes whose signature is valid under the issuer key inside the credential, and which expires
at `valid_until` or up to `2^20 - 1` later. -/
theorem C04_partial {a b d : ℕ} {n : TransferNote} {w : TransferWit} (h : OpensTransfer a b d n w)
    {i : InputV} (hi : i ∈ w.inputs) (hc : i.ro.policy.cred_pk ≠ neutral) :
    E.schnorrVerify i.cred.creator_pk ([i.cred.expiry, i.cred.user_addr.1, i.cred.user_addr.2] ++ i.cred.attrs)
      i.cred.cred = true ∧ i.cred.attrs.length = 8 ∧
    n.aux_info.valid_until.val ≤ i.cred.expiry.val ∧ i.cred.expiry.val < n.aux_info.valid_until.val + 2 ^ 20 := by
  obtain ⟨i0, is, o0, os, nl, nls, c, cs, hp⟩ := h.sat.parts h.shape
  have hx : ∃ first x, InputOk w n.pub.toV first i x := by
    rw [hp.inputs, List.mem_cons] at hi
    rcases hi with rfl | hi
    · exact ⟨_, _, hp.in0⟩
    · obtain ⟨x, -, hx⟩ := hp.mem_in hi
      exact ⟨_, _, hx⟩
  obtain ⟨first, x, -, -, -, -, -, -, h1, h2, h3⟩ := hx
  have hv : i.cred.sigValid = true := by
    rcases h3 with h3 | h3
    · simp only [PolicyV.isDummyCredPk, decide_eq_true_eq] at h3
      exact absurd h3 hc
    · exact h3
  refine ⟨hv, h1, ?_⟩
  have h2' : (i.cred.expiry - ((n.aux_info.valid_until.val : ℕ) : F)).val < 2 ^ 20 := h2
  obtain ⟨δ, hδ⟩ : ∃ δ, δ = (i.cred.expiry - ((n.aux_info.valid_until.val : ℕ) : F)).val := ⟨_, rfl⟩
  rw [← hδ] at h2'
  have he : i.cred.expiry = ((n.aux_info.valid_until.val + δ : ℕ) : F) := by
    rw [Nat.cast_add, hδ, f_cast_val]
    ring
  have hlt := n.aux_info.valid_until.isLt
  rw [he, natF_val (by have : (2:ℕ) ^ 64 + 2 ^ 20 < 2 ^ 252 := by norm_num
                       omega)]
  omega

/-- **Generated notes.**  The same for what `TransferNote::generate` was given. -/
theorem C04_generated_partial {b : Build} {rng : TransferRand} {inputs : List TransferNoteInput}
    {outputs : List RecordOpening} {pk : TransferProvingKey} {valid_until : U64} {extra : List Byte}
    {n : TransferNote} {sk : Fr} (gen : TransferNote.generate b rng inputs outputs pk valid_until extra = .ok (n, sk)) :
    ∀ i ∈ inputs, i.ro.asset_def.policy.cred_pk ≠ 0 → ∃ c, i.cred = some c ∧ valid_until ≤ c.expiry ∧
      E.schnorrVerify (E.xy c.creator_pk) (ExpirableCredential.msg c.expiry c.user_addr c.attrs) c.cred = true := by
  obtain ⟨w, pub, h⟩ := TransferNote.generate_ok.1 gen
  have hall : ∀ {l : List TransferNoteInput}, transferCheckCreds valid_until l = .ok () →
      ∀ i ∈ l, transferCheckCred valid_until i = .ok () := by
    intro l
    induction l with
    | nil => simp
    | cons a as ih =>
      intro hl i hi
      simp only [transferCheckCreds, bind_ok_iff] at hl
      obtain ⟨_, ha, has⟩ := hl
      rcases List.mem_cons.1 hi with rfl | hi
      · exact ha
      · exact ih has i hi
  intro i hi hc
  have hk := hall h.creds i hi
  unfold transferCheckCred at hk
  rw [if_pos hc] at hk
  cases hcr : i.cred with
  | none => rw [hcr] at hk; cases hk
  | some c =>
    rw [hcr] at hk
    simp only [ExpirableCredential.verify] at hk
    split at hk
    · cases hk
    · rename_i he
      split at hk
      · rename_i hs
        refine ⟨c, rfl, ?_, hs⟩
        simpa [ExpirableCredential.isExpired] using he
      · cases hk

end Cap

namespace Cap.Examples
open Toy Spec

/-- `C04_false` has instances -/
example : ∃ (fee_ro ro : RecordOpening), fee_ro.asset_def = AssetDefinition.native ∧ fee_ro.freeze_flag = .unfrozen ∧
    fee_ro.pub_key.address = alice.address ∧ fee_ro.amount.val < 2 ^ 127 ∧ ro.freeze_flag = .unfrozen ∧
    ro.pub_key.address = alice.address ∧ ro.pub_key.address ≠ 0 ∧ ro.asset_def.code ≠ dummyCode ∧
    ro.asset_def.policy.viewer_pk = 0 ∧ ro.asset_def.policy.cred_pk ≠ 0 ∧ ro.amount = 50 :=
  ⟨feeRec, ⟨50, ⟨77, { AssetPolicy.default with cred_pk := (4 : ZMod r) }⟩, alice.pubKey, .unfrozen, 5⟩, rfl, rfl, rfl,
    by decide +kernel, rfl, rfl, by decide +kernel, by decide +kernel, rfl, by decide +kernel, rfl⟩

/-- `C04_generate_false` on the example input -/
example : ∃ c, ExpirableCredential.create (3 : ZMod r) (List.replicate 8 0) 900 (5 : ZMod r) = .ok c ∧
    transferCheckCreds 900 [⟨assetRec, acc1, alice, some c⟩] = .ok () :=
  C04_generate_false ⟨assetRec, acc1, alice, none⟩ 900 900 (5 : ZMod r) (3 : ZMod r) _ rfl (by decide)

/-- the example transfer spends a record whose policy has an issuer -/
example : ∃ (w : TransferWit) (i : InputV), OpensTransfer 3 3 1 xfrNote w ∧ i ∈ w.inputs ∧
    i.ro.policy.cred_pk ≠ neutral := by
  obtain ⟨w, h, h1, -⟩ := xfr_opens
  have hin : assetRec.toV ∈ w.toV.inputs.map (·.ro) := by rw [h1]; simp
  obtain ⟨i, hi, he⟩ := List.mem_map.1 hin
  refine ⟨w.toV, i, h, hi, ?_⟩
  rw [he]
  decide +kernel

/-- `C04_generated_partial` on the example transfer -/
example : ∀ i ∈ xfrInputs, i.ro.asset_def.policy.cred_pk ≠ 0 → ∃ c, i.cred = some c ∧ 900 ≤ c.expiry ∧
      Toy.E.schnorrVerify (Toy.E.xy c.creator_pk) (ExpirableCredential.msg c.expiry c.user_addr c.attrs) c.cred = true :=
  C04_generated_partial xfrNote_eq

end Cap.Examples
