/-
C86: a note discloses nothing but its public parts.

status: proved
note: Two requests for a note are compared: the real one, and another story with other amounts, assets, policies, credentials, receivers, dummies and (for freezes) directions, told about the same positions of the tree and the same nullifier keys. Under idealised hiding of commitments and zero knowledge there is, for each pair of records, a renaming of blinding factors, and a renaming of the prover's randomness, under which both stories produce the very same note; so whoever sees the note and the ledger, the validator included, cannot tell the stories apart. C86_transfer: equal messages to the viewer suffice (C86_quiet: in particular no viewer or amounts up to the threshold); C86_receivers: amounts and receivers of the same inputs; C86_mint: fee record, change and receiver of a mint without viewer; C86_freeze and C86_release: a freeze note does not show whether it freezes or releases. The receivers' memos are separate ciphertexts and not covered; nullifier keys are the same in both stories (that nullifiers do not give away their keys is the pseudorandomness of the PRF, not modelled).
-/
import Verif.Lemmas.Private
import Verif.Props.C17
import Verif.Props.C53

namespace Cap

open Spec

variable [E : CapEnv] [S : CapExt]

omit S in
/-- Hiding commitments give renamings for all pairs of records at once. -/
theorem C86_masks (hides : CommitHiding) : ∃ σ, Masks σ := masks_of_hiding hides

section
variable {ni no : ℕ} {d : Fin 256} {valid_until : U64} {inputs inputs' : List TransferNoteInput}
  {outputs outputs' : List RecordOpening} {ad ad' : AssetDefinition} {fee : Amount} {root : F}
  {σ : RecordOpening → RecordOpening → F ≃ F} {pk : TransferProvingKey} {vk : TransferVerifyingKey}

/-- **A transfer note shows what it tells the viewer, and nothing else.**  Whatever other story is told, if it has the same
message for the viewer, then it gives the same note: the blinding factors renamed by `σ` and the randomness of the prover
renamed by `τ`. -/
theorem C86_transfer (masks : Masks σ) (zk : ZeroKnowledge) (complete : SnarkComplete)
    (keys : transferPreprocess ni no d = .ok (pk, vk))
    (wf : WellFormed ni no d.val valid_until inputs outputs ad fee root) (lim : Limits valid_until inputs ad)
    (story : TransferStory ni no valid_until inputs' outputs' ad' fee) (lim' : Limits valid_until inputs' ad')
    (alike : List.Forall₂ SameSpender inputs inputs')
    (dis : disclosed ad' (List.zipWith (retell σ) inputs inputs') (List.zipWith (disguise σ) outputs outputs') =
      disclosed ad inputs outputs) (b b' : Build) (sign enc : Fr) (extra : List Byte) :
    ∃ τ : ℕ ≃ ℕ, ∀ seed, ∃ n sk,
      TransferNote.generate b ⟨sign, enc, seed⟩ inputs outputs pk valid_until extra = .ok (n, sk) ∧
      TransferNote.generate b' ⟨sign, enc, τ seed⟩ (List.zipWith (retell σ) inputs inputs')
        (List.zipWith (disguise σ) outputs outputs') pk valid_until extra = .ok (n, sk) := by
  refine same_transfer zk complete keys wf lim (retell_wellFormed masks wf story alike)
    (retell_limits alike.length_eq lim') ?_ ?_ dis b b' sign enc extra
  · exact forall₂_zipWith_map (f := retell σ) (g := nullifierOf) (h := nullifierOf)
      (fun _ _ h => retell_nullifier masks h) alike
  · have hlo : List.Forall₂ (fun _ _ => True) outputs outputs' := by
      rw [List.forall₂_iff_get]
      exact ⟨wf.num_out.trans story.num_out.symm, fun _ _ _ => trivial⟩
    exact forall₂_zipWith_map (fun a b _ => masks.commitment a b) hlo

/-- **Without a viewer, or up to the threshold, a transfer note shows nothing** of the amounts, the asset, its policy, the
credentials, which inputs are dummies, and the receivers. -/
theorem C86_quiet (masks : Masks σ) (zk : ZeroKnowledge) (complete : SnarkComplete)
    (keys : transferPreprocess ni no d = .ok (pk, vk))
    (wf : WellFormed ni no d.val valid_until inputs outputs ad fee root) (lim : Limits valid_until inputs ad)
    (story : TransferStory ni no valid_until inputs' outputs' ad' fee) (lim' : Limits valid_until inputs' ad')
    (alike : List.Forall₂ SameSpender inputs inputs')
    (quiet : ad.policy.viewer_pk = 0 ∨ moved inputs ≤ ad.policy.reveal_threshold.val)
    (quiet' : ad'.policy.viewer_pk = 0 ∨ moved inputs' ≤ ad'.policy.reveal_threshold.val)
    (b b' : Build) (sign enc : Fr) (extra : List Byte) :
    ∃ τ : ℕ ≃ ℕ, ∀ seed, ∃ n sk,
      TransferNote.generate b ⟨sign, enc, seed⟩ inputs outputs pk valid_until extra = .ok (n, sk) ∧
      TransferNote.generate b' ⟨sign, enc, τ seed⟩ (List.zipWith (retell σ) inputs inputs')
        (List.zipWith (disguise σ) outputs outputs') pk valid_until extra = .ok (n, sk) := by
  refine C86_transfer masks zk complete keys wf lim story lim' alike ?_ b b' sign enc extra
  unfold disclosed
  rw [if_neg, if_neg]
  · rintro ⟨h1, h2⟩
    rcases quiet with h | h
    · exact h1 h
    · omega
  · rintro ⟨h1, h2⟩
    rw [retell_moved alike.length_eq] at h2
    rcases quiet' with h | h
    · exact h1 h
    · omega

/-- **Above the threshold, even the viewer learns only the revealed fields**, if these do not include blinding factors:
the note of every other story with the same viewer and the same revealed fields is the same. -/
theorem C86_viewer (masks : Masks σ) (zk : ZeroKnowledge) (complete : SnarkComplete)
    (keys : transferPreprocess ni no d = .ok (pk, vk))
    (wf : WellFormed ni no d.val valid_until inputs outputs ad fee root) (lim : Limits valid_until inputs ad)
    (story : TransferStory ni no valid_until inputs' outputs' ad' fee) (lim' : Limits valid_until inputs' ad')
    (alike : List.Forall₂ SameSpender inputs inputs')
    (loud : ad.policy.reveal_threshold.val < moved inputs) (loud' : ad'.policy.reveal_threshold.val < moved inputs')
    (viewer : ad'.policy.viewer_pk = ad.policy.viewer_pk) (blinds : ad'.policy.reveal_map[3] = false)
    (message : plainMessage ad' inputs' outputs' = plainMessage ad inputs outputs)
    (b b' : Build) (sign enc : Fr) (extra : List Byte) :
    ∃ τ : ℕ ≃ ℕ, ∀ seed, ∃ n sk,
      TransferNote.generate b ⟨sign, enc, seed⟩ inputs outputs pk valid_until extra = .ok (n, sk) ∧
      TransferNote.generate b' ⟨sign, enc, τ seed⟩ (List.zipWith (retell σ) inputs inputs')
        (List.zipWith (disguise σ) outputs outputs') pk valid_until extra = .ok (n, sk) := by
  refine C86_transfer masks zk complete keys wf lim story lim' alike ?_ b b' sign enc extra
  unfold disclosed
  rw [retell_moved alike.length_eq, retell_message alike.length_eq (wf.num_out.trans story.num_out.symm) blinds,
    message, viewer]
  by_cases hv : ad.policy.viewer_pk = 0
  · rw [if_neg (fun h => h.1 hv), if_neg (fun h => h.1 hv)]
  · rw [if_pos ⟨hv, loud'⟩, if_pos ⟨hv, loud⟩]

/-- **Receivers and the split among them are hidden**: the same inputs, spent to any other receivers with any other
amounts, give the same note. -/
theorem C86_receivers (masks : Masks σ) (zk : ZeroKnowledge) (complete : SnarkComplete)
    (keys : transferPreprocess ni no d = .ok (pk, vk))
    (wf : WellFormed ni no d.val valid_until inputs outputs ad fee root) (lim : Limits valid_until inputs ad)
    (quiet : ad.policy.viewer_pk = 0 ∨ moved inputs ≤ ad.policy.reveal_threshold.val)
    (num_out : outputs'.length = no) (fee_out : ∃ o0 os, outputs' = o0 :: os ∧ o0.asset_def = AssetDefinition.native)
    (asset_out : ∀ o ∈ outputs'.tail, o.asset_def = ad) (unfrozen_out : ∀ o ∈ outputs', o.freeze_flag = .unfrozen)
    (balanced : Balanced (inputs.map (·.ro)) outputs' fee) (b b' : Build) (sign enc : Fr) (extra : List Byte) :
    ∃ τ : ℕ ≃ ℕ, ∀ seed, ∃ n sk,
      TransferNote.generate b ⟨sign, enc, seed⟩ inputs outputs pk valid_until extra = .ok (n, sk) ∧
      TransferNote.generate b' ⟨sign, enc, τ seed⟩ inputs (List.zipWith (disguise σ) outputs outputs') pk valid_until
        extra = .ok (n, sk) := by
  have e : List.zipWith (retell σ) inputs inputs = inputs := by
    rw [List.zipWith_self]
    refine (List.map_congr_left (fun i _ => ?_)).trans (List.map_id _)
    unfold retell disguise reblind
    simp only [masks.self]
    rfl
  have := C86_quiet masks zk complete keys wf lim (inputs' := inputs) (outputs' := outputs') (ad' := ad)
    ⟨wf.num_in, num_out, wf.fee_in, fee_out, wf.asset_in, asset_out, wf.only_dummies, wf.code_dummy, wf.code_native,
      wf.freezer_has_viewer, wf.owned, wf.unfrozen_in, unfrozen_out, wf.dummies, balanced, wf.small, wf.creds⟩ lim
    (List.forall₂_same.2 (fun _ _ => ⟨rfl, id⟩)) quiet quiet b b' sign enc extra
  rw [e] at this
  exact this

end

/-- **A mint without viewer hides who receives it and from which record the fee is paid**: the amount of the fee record,
the change and the receiver of another story give the same note.  (The amount minted, the asset and its internal code are
public.) -/
theorem C86_mint {σ : RecordOpening → RecordOpening → F ≃ F} (masks : Masks σ) (zk : ZeroKnowledge)
    (complete : SnarkComplete) {d : Fin 256} {pk : MintProvingKey} {vk : MintVerifyingKey}
    (keys : mintPreprocess d = .ok (pk, vk)) {root : F} {fi fi' : FeeInput} {fee : Amount}
    (pays : PaysFee d.val root fi fee) (story : FeeStory fi' fee)
    (payer : fi'.owner_keypair.deriveNullifierKey 0 = fi.owner_keypair.deriveNullifierKey 0)
    {seed seed' : F} {desc desc' : List Byte} {ro ro' : RecordOpening}
    (mintable : Mintable seed desc ro) (mintable' : Mintable seed' desc' ro') (small : ro.amount.val < 2 ^ 127)
    (amount : ro'.amount = ro.amount) (asset : ro'.asset_def = ro.asset_def)
    (code : internalCodeOfDesc seed' desc' = internalCodeOfDesc seed desc) (quiet : ro.asset_def.policy.viewer_pk = 0) :
    ∃ κ : F ≃ F, ∀ (blind : F) (sign enc : Fr), ∃ info chg info' chg', ∃ τ : ℕ ≃ ℕ,
      TxnFeeInfo.new blind fi fee = .ok (info, chg) ∧
      TxnFeeInfo.new (κ blind) (retellFee σ fi fi') fee = .ok (info', chg') ∧
      ∀ s, ∃ n sk, MintNote.generate ⟨sign, enc, s⟩ ro seed desc info pk = .ok (n, sk) ∧
        MintNote.generate ⟨sign, enc, τ s⟩ (disguise σ ro ro') seed' desc' info' pk = .ok (n, sk) := by
  have pays' := retellFee_pays masks pays story
  obtain ⟨κ, hκ⟩ := change_mask masks pays pays'
  refine ⟨κ, fun blind sign enc => ?_⟩
  obtain ⟨info, chg, info', chg', new, new', hchg⟩ := hκ blind
  obtain ⟨τ, hτ⟩ := same_mint zk complete keys pays pays' mintable (ro' := disguise σ ro ro')
    ⟨mintable'.code, mintable'.unfrozen⟩ small new new' (retellFee_nullifier masks pays story payer)
    (masks.commitment _ _) hchg amount asset code sign enc (by
      unfold ViewableMemo.newForMintNote
      have : (disguise σ ro ro').asset_def.policy.viewer_pk = 0 := by
        show ro'.asset_def.policy.viewer_pk = 0
        rw [asset, quiet]
      simp only [this, quiet, if_true])
  exact ⟨info, chg, info', chg', τ, new, new', hτ⟩

section
variable {num : ℕ} {d : Fin 256} {root : F} {inputs inputs' : List FreezeNoteInput} {fi fi' : FeeInput} {fee : Amount}
  {pk : FreezeProvingKey} {vk : FreezeVerifyingKey} {σ : RecordOpening → RecordOpening → F ≃ F}

/-- **A freeze note hides the amounts, the assets and the flags of its records**, and the amount of the fee record: another
story gives the same note. -/
theorem C86_freeze (masks : Masks σ) (zk : ZeroKnowledge) (complete : SnarkComplete)
    (keys : freezePreprocess num d = .ok (pk, vk)) (wf : WellFormedFreeze num d.val root inputs fi fee)
    (owners : ∀ i ∈ inputs, i.ro.pub_key.address ≠ 0) (story : FeeStory fi' fee)
    (payer : fi'.owner_keypair.deriveNullifierKey 0 = fi.owner_keypair.deriveNullifierKey 0)
    (stories : ∀ i ∈ inputs', FreezeStory i) (owners' : ∀ i ∈ inputs', i.ro.pub_key.address ≠ 0)
    (alike : List.Forall₂ SameFreezer inputs inputs') :
    ∃ (κ : F ≃ F) (ρ : ℕ → F ≃ F), ∀ (blind : F) (blinds : ℕ → F) (sign : Fr), ∃ info chg info' chg', ∃ τ : ℕ ≃ ℕ,
      TxnFeeInfo.new blind fi fee = .ok (info, chg) ∧
      TxnFeeInfo.new (κ blind) (retellFee σ fi fi') fee = .ok (info', chg') ∧
      ∀ seed, ∃ n sk outs outs',
        FreezeNote.generate ⟨blinds, sign, seed⟩ inputs info pk = .ok (n, sk, outs) ∧
        FreezeNote.generate ⟨fun k => ρ k (blinds k), sign, τ seed⟩ (List.zipWith (retellFreeze σ) inputs inputs') info'
          pk = .ok (n, sk, outs') := by
  have pays' := retellFee_pays masks wf.pays story
  have hn := retellFee_nullifier masks wf.pays story payer
  have hns : (List.zipWith (retellFreeze σ) inputs inputs').map freezerNullifierOf = inputs.map freezerNullifierOf :=
    forall₂_zipWith_map (f := retellFreeze σ) (g := freezerNullifierOf) (h := freezerNullifierOf)
      (fun _ _ h => retellFreeze_nullifier masks h) alike
  have wf' : WellFormedFreeze num d.val root (List.zipWith (retellFreeze σ) inputs inputs') (retellFee σ fi fi') fee := by
    refine ⟨?_, ?_, pays', ?_, ?_⟩
    · intro h
      have := congrArg List.length h
      simp only [List.length_zipWith, ← alike.length_eq, min_self, List.length_nil] at this
      exact wf.some_input (List.length_eq_zero_iff.1 this)
    · simp [← alike.length_eq, wf.num_in]
    · intro i hi
      obtain ⟨a, ha, b, hb, hab, rfl⟩ := mem_zipWith₂ alike hi
      have e : (retellFreeze σ a b).ro.commitment = a.ro.commitment := masks.commitment _ _
      have hd : a.acc.path.length = d.val := by
        rcases wf.inputs_ok a ha with ⟨-, -, a3, -, -⟩ | ⟨-, -, a3⟩ <;> exact a3
      rcases stories b hb with ⟨h1, h2⟩ | ⟨h1, h2⟩
      · have hne : b.ro.asset_def ≠ AssetDefinition.dummy := by
          intro h0
          rw [h0] at h1
          exact h1 rfl
        rcases wf.inputs_ok a ha with ⟨-, -, -, a4, a5⟩ | ⟨a1, -, -⟩
        · exact .real h1 h2 hd a4 (by rw [e]; exact a5)
        · exact absurd a1 (hab.real hne)
      · exact .dummy h1 h2 hd
    · rw [hns, hn]
      exact wf.once
  have ow' : ∀ i ∈ List.zipWith (retellFreeze σ) inputs inputs', i.ro.pub_key.address ≠ 0 := by
    intro i hi
    obtain ⟨a, -, b, hb, rfl⟩ := mem_zipWith hi
    exact owners' b hb
  obtain ⟨κ, hκ⟩ := change_mask masks wf.pays pays'
  obtain ⟨ρ, hρ⟩ := outputs_mask masks inputs (List.zipWith (retellFreeze σ) inputs inputs')
    (by simp [← alike.length_eq])
  refine ⟨κ, ρ, fun blind blinds sign => ?_⟩
  obtain ⟨info, chg, info', chg', new, new', hchg⟩ := hκ blind
  obtain ⟨τ, hτ⟩ := same_freeze zk complete keys wf wf' owners ow' new new' hn hns hchg (hρ blinds) sign
  exact ⟨info, chg, info', chg', τ, new, new', hτ⟩

/-- **A freeze note does not show whether it freezes or releases**: the same note comes from the same positions of the
tree, owners, amounts and assets with every flag the other way round. -/
theorem C86_release (masks : Masks σ) (zk : ZeroKnowledge) (complete : SnarkComplete)
    (keys : freezePreprocess num d = .ok (pk, vk)) (wf : WellFormedFreeze num d.val root inputs fi fee)
    (owners : ∀ i ∈ inputs, i.ro.pub_key.address ≠ 0) :
    ∃ inputs' : List FreezeNoteInput,
      List.Forall₂ (fun i i' => i'.ro.freeze_flag = i.ro.freeze_flag.flip ∧ i'.ro.amount = i.ro.amount ∧
        i'.ro.asset_def = i.ro.asset_def ∧ i'.ro.pub_key = i.ro.pub_key ∧ i'.acc = i.acc ∧ i'.keypair = i.keypair ∧
        i'.ro.commitment = i.ro.commitment) inputs inputs' ∧
      ∃ (κ : F ≃ F) (ρ : ℕ → F ≃ F), ∀ (blind : F) (blinds : ℕ → F) (sign : Fr), ∃ info chg info' chg', ∃ τ : ℕ ≃ ℕ,
        TxnFeeInfo.new blind fi fee = .ok (info, chg) ∧ TxnFeeInfo.new (κ blind) fi fee = .ok (info', chg') ∧
        ∀ seed, ∃ n sk outs outs',
          FreezeNote.generate ⟨blinds, sign, seed⟩ inputs info pk = .ok (n, sk, outs) ∧
          FreezeNote.generate ⟨fun k => ρ k (blinds k), sign, τ seed⟩ inputs' info' pk = .ok (n, sk, outs') := by
  have hf : retellFee σ fi fi = fi := by
    unfold retellFee disguise reblind
    simp only [masks.self]
  have alike : List.Forall₂ SameFreezer inputs (inputs.map unlike) := by
    rw [List.forall₂_map_right_iff]
    exact List.forall₂_same.2 (fun _ _ => ⟨rfl, id⟩)
  have h := C86_freeze masks zk complete keys wf owners (fi' := fi) (inputs' := inputs.map unlike)
    ⟨wf.pays.native, wf.pays.unfrozen, wf.pays.owned, wf.pays.covers⟩ rfl
    (by
      intro i hi
      obtain ⟨j, hj, rfl⟩ := List.mem_map.1 hi
      rcases wf.inputs_ok j hj with ⟨a1, a2, -, -, -⟩ | ⟨a1, a2, -⟩
      · exact .inl ⟨a1, a2⟩
      · exact .inr ⟨a1, a2⟩)
    (by
      intro i hi
      obtain ⟨j, hj, rfl⟩ := List.mem_map.1 hi
      exact owners j hj) alike
  rw [hf] at h
  refine ⟨_, ?_, h⟩
  rw [List.zipWith_map_right, List.zipWith_self, List.forall₂_map_right_iff]
  exact List.forall₂_same.2 (fun i _ => ⟨rfl, rfl, rfl, rfl, rfl, rfl, masks.commitment _ _⟩)

end

end Cap

namespace Cap.Examples
open Toy Spec

/-- the toy polynomial, unfolded at its first value -/
theorem poly_foldl (k : ℕ) : ∀ (l : List (ZMod p)) (a : ZMod p),
    l.foldl (fun acc x => acc * (k : ZMod p) + x) a = a * (k : ZMod p) ^ l.length +
      l.foldl (fun acc x => acc * (k : ZMod p) + x) 0
  | [], a => by simp
  | x :: l, a => by
    simp only [List.foldl_cons, List.length_cons]
    rw [poly_foldl k l (a * k + x), poly_foldl k l (0 * k + x)]
    ring

/-- the toy commitments hide: the blinding factor is added to a polynomial of the message -/
theorem toyHides : CommitHiding := by
  intro m m' hl
  obtain ⟨u, hu⟩ : ∃ u : ZMod p, u * (1000003 : ℕ) = 1 := ⟨(1000003 : ZMod p)⁻¹, by decide +kernel⟩
  have hun : u ^ m.length * ((1000003 : ℕ) : ZMod p) ^ m.length = 1 := by rw [← mul_pow, hu, one_pow]
  refine ⟨Equiv.addRight ((m.foldl (fun acc x => acc * ((1000003 : ℕ) : ZMod p) + x) 0 -
    m'.foldl (fun acc x => acc * ((1000003 : ℕ) : ZMod p) + x) 0) * u ^ m.length), fun b => ?_⟩
  show poly 1000003 (_ :: m') = poly 1000003 (b :: m)
  unfold poly
  simp only [List.foldl_cons]
  rw [poly_foldl 1000003 m' (1 * ((1000003 : ℕ) : ZMod p) + _), poly_foldl 1000003 m (1 * ((1000003 : ℕ) : ZMod p) + b), ← hl]
  simp only [Equiv.coe_addRight]
  linear_combination (m.foldl (fun acc x => acc * ((1000003 : ℕ) : ZMod p) + x) 0 -
    m'.foldl (fun acc x => acc * ((1000003 : ℕ) : ZMod p) + x) 0) * hun

/-- the toy proofs do not depend on the witness -/
theorem toyZk : ZeroKnowledge := by
  intro sh pk vk h inst inst' h1 h2 h3 h4 hpub ext
  cases h
  refine ⟨Equiv.refl _, fun seed => ?_⟩
  rw [show S.prove sh inst' ext (Equiv.refl ℕ seed) = some (proofOf sh inst'.pub ext) from if_pos ⟨h3, h4⟩,
    show S.prove sh inst ext seed = some (proofOf sh inst.pub ext) from if_pos ⟨h1, h2⟩, hpub]

/-- Alice pays 60 of her 100 to Bob -/
def outs86 : List RecordOpening := [⟨37, AssetDefinition.native, alice.pubKey, .unfrozen, 46⟩,
  ⟨60, AssetDefinition.native, bob.pubKey, .unfrozen, 45⟩]

theorem nat_wellFormed : WellFormed 2 2 1 800 natInputs outs86 AssetDefinition.native 3 root where
  num_in := rfl
  num_out := rfl
  depth := by decide +kernel
  fee_in := ⟨_, _, rfl, rfl⟩
  fee_out := ⟨_, _, rfl, rfl⟩
  asset_in := by decide +kernel
  asset_out := by decide +kernel
  only_dummies := fun _ => rfl
  code_dummy := by decide +kernel
  code_native := fun _ => rfl
  freezer_has_viewer := by decide +kernel
  owned := by decide +kernel
  unfrozen_in := by decide +kernel
  unfrozen_out := by decide +kernel
  member := by
    intro i hi hd
    simp only [natInputs, List.mem_cons, List.not_mem_nil, or_false] at hi
    rcases hi with rfl | rfl
    · decide +kernel
    · exact absurd rfl hd
  dummies := by decide +kernel
  once := by decide +kernel
  balanced := by
    refine ⟨feeRec, [dummyRec], rfl, fun c => ?_⟩
    have hr : real (natInputs.map (·.ro)) = [feeRec] := by decide +kernel
    rw [hr]
    by_cases hc : c = nativeCode
    · subst hc; decide +kernel
    · have h1 : ¬ (nativeCode : F) = c := fun h => hc h.symm
      have e1 : feeRec.asset_def.code = nativeCode := rfl
      have e2 : AssetDefinition.native.code = nativeCode := rfl
      simp [totalOf, outs86, e1, e2, h1, hc]
  small := by decide +kernel
  creds := by
    have h : ∀ i ∈ natInputs, i.ro.asset_def.policy.cred_pk = 0 := by decide +kernel
    exact fun i hi hc => absurd (h i hi) hc

theorem nat_limits : Limits 800 natInputs AssetDefinition.native := by
  refine ⟨by decide, ?_, Or.inl rfl⟩
  have h : ∀ i ∈ natInputs, i.ro.asset_def.policy.cred_pk = 0 := by decide +kernel
  exact fun i hi hc => absurd (h i hi) hc

/-- another story: Alice spends 1000 and keeps everything but the fee -/
def tale86 : List TransferNoteInput :=
  [⟨⟨1000, AssetDefinition.native, alice.pubKey, .unfrozen, 0⟩, accDummy, alice, none⟩, ⟨dummyRec, accDummy, bob, none⟩]
/-- what is created in it -/
def taleOuts86 : List RecordOpening := [⟨500, AssetDefinition.native, alice.pubKey, .unfrozen, 0⟩,
  ⟨497, AssetDefinition.native, alice.pubKey, .unfrozen, 0⟩]

theorem tale86_story : TransferStory 2 2 800 tale86 taleOuts86 AssetDefinition.native 3 where
  num_in := rfl
  num_out := rfl
  fee_in := ⟨_, _, rfl, rfl⟩
  fee_out := ⟨_, _, rfl, rfl⟩
  asset_in := by decide +kernel
  asset_out := by decide +kernel
  only_dummies := fun _ => rfl
  code_dummy := by decide +kernel
  code_native := fun _ => rfl
  freezer_has_viewer := by decide +kernel
  owned := by decide +kernel
  unfrozen_in := by decide +kernel
  unfrozen_out := by decide +kernel
  dummies := by decide +kernel
  balanced := by
    refine ⟨_, _, rfl, fun c => ?_⟩
    have hr : real (tale86.map (·.ro)) = [⟨1000, AssetDefinition.native, alice.pubKey, .unfrozen, 0⟩] := by decide +kernel
    rw [hr]
    by_cases hc : c = nativeCode
    · subst hc; decide +kernel
    · have h1 : ¬ (nativeCode : F) = c := fun h => hc h.symm
      have e2 : AssetDefinition.native.code = nativeCode := rfl
      simp [totalOf, taleOuts86, e2, h1, hc]
  small := by decide +kernel
  creds := by
    have h : ∀ i ∈ tale86, i.ro.asset_def.policy.cred_pk = 0 := by decide +kernel
    exact fun i hi hc => absurd (h i hi) hc

/-- Nobody can tell whether Alice paid Bob 60 of 100 or kept 997 of 1000: both stories end in the same note. -/
example : ∃ inputs' outputs', (inputs'.map (fun i => i.ro.amount.val), outputs'.map (fun o => o.amount.val)) =
      ([1000, 0], [500, 497]) ∧ ∀ seed, ∃ n sk seed',
    TransferNote.generate .release ⟨51, 52, seed⟩ natInputs outs86 natPk 800 [] = .ok (n, sk) ∧
    TransferNote.generate .release ⟨51, 52, seed'⟩ inputs' outputs' natPk 800 [] = .ok (n, sk) := by
  obtain ⟨σ, masks⟩ := C86_masks toyHides
  have lim : Limits 800 tale86 AssetDefinition.native := by
    refine ⟨by decide, ?_, Or.inl rfl⟩
    have h : ∀ i ∈ tale86, i.ro.asset_def.policy.cred_pk = 0 := by decide +kernel
    exact fun i hi hc => absurd (h i hi) hc
  obtain ⟨τ, h⟩ := C86_quiet masks toyZk complete natKeys_eq nat_wellFormed nat_limits tale86_story lim
    (.cons ⟨rfl, by decide +kernel⟩ (.cons ⟨rfl, by decide +kernel⟩ .nil)) (Or.inl rfl) (Or.inl rfl) .release .release
    51 52 []
  refine ⟨List.zipWith (retell σ) natInputs tale86, List.zipWith (disguise σ) outs86 taleOuts86, rfl, fun seed => ?_⟩
  obtain ⟨n, sk, h1, h2⟩ := h seed
  exact ⟨n, sk, _, h1, h2⟩

/-- Nobody can tell whether the freezer released Bob's record and froze Alice's, or the other way round. -/
example (blinds : ℕ → F) : ∃ inputs' : List FreezeNoteInput,
    (frzInputs.map (·.ro.freeze_flag), inputs'.map (·.ro.freeze_flag)) =
      ([.frozen, .unfrozen, .unfrozen], [.unfrozen, .frozen, .frozen]) ∧
    ∃ info info' blinds' seed' n sk outs outs', FreezeNote.generate ⟨blinds, 53, 0⟩ frzInputs info frzPk = .ok (n, sk, outs) ∧
      FreezeNote.generate ⟨blinds', 53, seed'⟩ inputs' info' frzPk = .ok (n, sk, outs') := by
  obtain ⟨σ, masks⟩ := C86_masks toyHides
  obtain ⟨inputs', hf, κ, ρ, h⟩ := C86_release masks toyZk complete frzKeys_eq frz_wellFormed (by decide +kernel)
  obtain ⟨info, chg, info', chg', τ, -, -, h⟩ := h 46 blinds 53
  obtain ⟨n, sk, outs, outs', h1, h2⟩ := h 0
  refine ⟨inputs', ?_, info, info', _, _, n, sk, outs, outs', h1, h2⟩
  have e : inputs'.map (·.ro.freeze_flag) = frzInputs.map (fun i => i.ro.freeze_flag.flip) :=
    (forall₂_map_eq (fun i j h => h.1.symm) hf).symm
  rw [e]
  rfl

/-- the asset, without viewer and freezer -/
def asset86 : AssetDefinition := ⟨newDomestic seed desc, ⟨0, 0, 0, #v[false, false, false, false, false, false, false,
  false, false, false, false, false], 0⟩⟩

/-- Nobody can tell whether 1000 units were minted for Bob, or for Alice by someone with a larger fee record. -/
example : ∃ fi' ro', (fi'.ro.amount.val, ro'.pub_key) = (5000, alice.pubKey) ∧ ∃ info info' n sk seed',
    MintNote.generate ⟨51, 52, 0⟩ ⟨1000, asset86, bob.pubKey, .unfrozen, 44⟩ seed desc info mintPk = .ok (n, sk) ∧
    info'.fee_input = fi' ∧ MintNote.generate ⟨51, 52, seed'⟩ ro' seed desc info' mintPk = .ok (n, sk) := by
  obtain ⟨σ, masks⟩ := C86_masks toyHides
  obtain ⟨κ, h⟩ := C86_mint masks toyZk complete mintKeys_eq toyPays
    (fi' := ⟨⟨5000, AssetDefinition.native, alice.pubKey, .unfrozen, 0⟩, accDummy, alice⟩)
    ⟨rfl, rfl, rfl, by decide +kernel⟩ rfl (seed := seed) (desc := desc) (seed' := seed) (desc' := desc)
    (ro := ⟨1000, asset86, bob.pubKey, .unfrozen, 44⟩) (ro' := ⟨1000, asset86, alice.pubKey, .unfrozen, 0⟩)
    ⟨rfl, rfl⟩ ⟨rfl, rfl⟩ (by decide +kernel) rfl rfl rfl rfl
  obtain ⟨info, chg, info', chg', τ, -, new', h⟩ := h 46 51 52
  obtain ⟨n, sk, h1, h2⟩ := h 0
  exact ⟨_, _, rfl, info, info', n, sk, _, h1, (C23_change _ _ _ _ _ new').2.2.2.2.2.2.1, h2⟩

/-- an asset whose viewer learns the asset code of transfers above 10, but no other field -/
def seen86 : AssetDefinition := ⟨500, ⟨viewer.pubKey, 0, 0, #v[false, false, false, false, false, false, false,
  false, false, false, false, false], 10⟩⟩
/-- Alice's record of it -/
def seenRec86 : RecordOpening := ⟨50, seen86, alice.pubKey, .unfrozen, 32⟩
/-- the leaf of this record -/
def seenLeaf86 : ZMod p := E.leafHash 1 seenRec86.commitment
/-- the root of the tree with this record -/
def seenRoot86 : ZMod p := E.nodeHash leaf0 seenLeaf86 leaf2
/-- Alice pays 50 to Bob -/
def seenIn86 : List TransferNoteInput := [⟨feeRec, ⟨[⟨seenLeaf86, leaf2, .left⟩], seenRoot86, 0⟩, alice, none⟩,
  ⟨seenRec86, ⟨[⟨leaf0, leaf2, .middle⟩], seenRoot86, 1⟩, alice, none⟩]
/-- what is created -/
def seenOut86 : List RecordOpening := [chgRec, ⟨50, seen86, bob.pubKey, .unfrozen, 42⟩]
/-- another story: Alice moves 70 to her other self -/
def toldIn86 : List TransferNoteInput := [⟨feeRec, accDummy, alice, none⟩,
  ⟨⟨70, seen86, alice.pubKey, .unfrozen, 0⟩, accDummy, alice, none⟩]
/-- what is created in it -/
def toldOut86 : List RecordOpening := [chgRec, ⟨70, seen86, alice.pubKey, .unfrozen, 0⟩]

theorem seen86_balanced (a : Amount) (pk pk' : UserPubKey) (x y : F) :
    Balanced [feeRec, ⟨a, seen86, pk, .unfrozen, x⟩] [chgRec, ⟨a, seen86, pk', .unfrozen, y⟩] 7 := by
  refine ⟨_, _, rfl, fun c => ?_⟩
  have hd : seen86 ≠ AssetDefinition.dummy := by decide +kernel
  have hr : real [feeRec, ⟨a, seen86, pk, .unfrozen, x⟩] = [feeRec, ⟨a, seen86, pk, .unfrozen, x⟩] := by
    unfold real
    have : feeRec.asset_def ≠ AssetDefinition.dummy := by decide +kernel
    simp [this, hd]
  rw [hr]
  have e1 : feeRec.asset_def.code = nativeCode := rfl
  have e2 : chgRec.asset_def.code = nativeCode := rfl
  have e3 : feeRec.amount.val = 100 := rfl
  have e4 : chgRec.amount.val = 93 := rfl
  have e5 : (7 : Amount).val = 7 := rfl
  have hns : (nativeCode : F) ≠ seen86.code := by decide +kernel
  by_cases h1 : (nativeCode : F) = c
  · have h2 : ¬ seen86.code = c := fun h => hns (h1.trans h.symm)
    subst h1
    simp [totalOf, e1, e2, e3, e4, h2, e5]
  · have h3 : ¬ c = nativeCode := fun h => h1 h.symm
    by_cases h2 : seen86.code = c
    · simp [totalOf, e1, e2, h1, h2, h3]
    · simp [totalOf, e1, e2, h1, h2, h3]

theorem seen86_wellFormed : WellFormed 2 2 1 900 seenIn86 seenOut86 seen86 7 seenRoot86 where
  num_in := rfl
  num_out := rfl
  depth := by decide +kernel
  fee_in := ⟨_, _, rfl, rfl⟩
  fee_out := ⟨_, _, rfl, rfl⟩
  asset_in := by decide +kernel
  asset_out := by decide +kernel
  only_dummies := fun h => absurd (h seenIn86[1] (by simp [seenIn86])) (by decide +kernel)
  code_dummy := by decide +kernel
  code_native := by decide +kernel
  freezer_has_viewer := by decide +kernel
  owned := by decide +kernel
  unfrozen_in := by decide +kernel
  unfrozen_out := by decide +kernel
  member := by
    intro i hi _
    simp only [seenIn86, List.mem_cons, List.not_mem_nil, or_false] at hi
    rcases hi with rfl | rfl
    · decide +kernel
    · decide +kernel
  dummies := by decide +kernel
  once := by decide +kernel
  balanced := seen86_balanced 50 _ _ _ _
  small := by decide +kernel
  creds := by
    have h : ∀ i ∈ seenIn86, i.ro.asset_def.policy.cred_pk = 0 := by decide +kernel
    exact fun i hi hc => absurd (h i hi) hc

theorem told86_story : TransferStory 2 2 900 toldIn86 toldOut86 seen86 7 where
  num_in := rfl
  num_out := rfl
  fee_in := ⟨_, _, rfl, rfl⟩
  fee_out := ⟨_, _, rfl, rfl⟩
  asset_in := by decide +kernel
  asset_out := by decide +kernel
  only_dummies := fun h => absurd (h toldIn86[1] (by simp [toldIn86])) (by decide +kernel)
  code_dummy := by decide +kernel
  code_native := by decide +kernel
  freezer_has_viewer := by decide +kernel
  owned := by decide +kernel
  unfrozen_in := by decide +kernel
  unfrozen_out := by decide +kernel
  dummies := by decide +kernel
  balanced := seen86_balanced 70 _ _ _ _
  small := by decide +kernel
  creds := by
    have h : ∀ i ∈ toldIn86, i.ro.asset_def.policy.cred_pk = 0 := by decide +kernel
    exact fun i hi hc => absurd (h i hi) hc

/-- Not even the viewer can tell whether Alice paid 50 to Bob or 70 to herself. -/
example (σ) (masks : Masks σ) (sign enc : Fr) : ∃ τ : ℕ ≃ ℕ, ∀ seed, ∃ n sk,
    TransferNote.generate .release ⟨sign, enc, seed⟩ seenIn86 seenOut86 natPk 900 [] = .ok (n, sk) ∧
    TransferNote.generate .release ⟨sign, enc, τ seed⟩ (List.zipWith (retell σ) seenIn86 toldIn86)
      (List.zipWith (disguise σ) seenOut86 toldOut86) natPk 900 [] = .ok (n, sk) := by
  have hl : ∀ l : List TransferNoteInput, (∀ i ∈ l, i.ro.asset_def.policy.cred_pk = 0) → 10 < moved l →
      Limits 900 l seen86 := fun l h hm =>
    ⟨by decide, fun i hi hc => absurd (h i hi) hc, .inr (.inr ⟨hm, .inl rfl⟩)⟩
  exact C86_viewer masks toyZk complete natKeys_eq seen86_wellFormed (hl _ (by decide +kernel) (by decide +kernel))
    told86_story (hl _ (by decide +kernel) (by decide +kernel))
    (.cons ⟨rfl, by decide +kernel⟩ (.cons ⟨rfl, by decide +kernel⟩ .nil)) (by decide +kernel) (by decide +kernel) rfl rfl
    (by decide +kernel) .release .release sign enc []

end Cap.Examples
