/-
C10: a record has one nullifier.

status: partial
note: For notes the library generates the claim holds in full (C10_generated: any two generated notes of any kinds that spend the same record at the same position publish the same nullifier for it). For all accepted notes it holds under two conditions (C10_partial): the owner is not the neutral address, and, if the policy has no freezer, the secret scalars are below the order of the curve. FALSE otherwise, for every instantiation: (1) C10_alias_false: without a freezer the circuit uses the secret scalar itself as nullifier key but only constrains it to fit in scalarBits bits, so that an owner whose key k satisfies k + r < 2^scalarBits can spend one record (e.g. a native one) in two accepted transfers with two nullifiers; (2) C10_unowned_false: a record owned by the neutral address can be transferred and frozen.
-/
import Verif.Props.C07
import Verif.Props.C08
import Verif.Props.C09
import Verif.Props.C06
import Verif.Lemmas.Generated

namespace Cap

open Spec

variable [E : CapEnv] [S : CapExt]

/-! ### Accepted notes -/

omit S in
/-- same spender, same opening: same nullifier key -/
theorem same_spender_key {sk1 sk2 : F} {P : PtV} {Q : Pt} (h1 : E.xy (sk1.val • E.gen) = P)
    (h2 : E.xy (sk2.val • E.gen) = P) (canonical : Q = 0 → sk1.val < E.r ∧ sk2.val < E.r) :
    deriveNullifierKeyV sk1 (E.xy Q) = deriveNullifierKeyV sk2 (E.xy Q) := by
  have hm := smul_gen_inj (xy_inj (h1.trans h2.symm))
  unfold deriveNullifierKeyV
  by_cases hq : Q = 0
  · obtain ⟨c1, c2⟩ := canonical hq
    rw [Nat.mod_eq_of_lt c1, Nat.mod_eq_of_lt c2] at hm
    rw [ZMod.val_injective _ hm]
  · have hq' : ¬ E.xy Q = neutral := fun h => hq (xy_eq_neutral.1 h)
    rw [if_neg hq', if_neg hq', E.ecMul_xy, E.ecMul_xy, ← smul_mod sk1.val, ← smul_mod sk2.val, hm]

/-- **Accepted notes.**  Two notes (of any kinds, not necessarily distinct) that spend the same record opening at the
same position publish the same nullifier for it, provided the owner is not the neutral address and, in case the policy
has no freezer, the secret scalars are canonical. -/
theorem C10_partial {n1 n2 : TransactionNote} {s1 s2 : Spend} (h1 : NoteSpends n1 s1) (h2 : NoteSpends n2 s2)
    {ro : RecordOpening} (r1 : Reads ro s1.ro) (r2 : Reads ro s2.ro) (position : s1.acc.uid = s2.acc.uid)
    (not_dummy : ro.asset_def.code ≠ dummyCode) (owned : ro.pub_key.address ≠ 0)
    (canonical : ro.asset_def.policy.freezer_pk = 0 → s1.sk.val < E.r ∧ s2.sk.val < E.r) :
    s1.nullifier = s2.nullifier ∧ s1.nullifier ∈ n1.nullifiers ∧ s2.nullifier ∈ n2.nullifiers := by
  obtain ⟨m1, v1⟩ := h1.valid
  obtain ⟨m2, v2⟩ := h2.valid
  refine ⟨?_, m1, m2⟩
  obtain ⟨-, c1, o1, -, -, f1, -⟩ := reads_iff.1 r1
  obtain ⟨-, c2, o2, -, -, f2, -⟩ := reads_iff.1 r2
  have hc : s1.ro.commitment = s2.ro.commitment := (reads_commitment r1).trans (reads_commitment r2).symm
  have hon : E.xy ro.pub_key.address ≠ neutral := fun h => owned (xy_eq_neutral.1 h)
  obtain ⟨ro1, acc1, sk1, who1⟩ := s1
  obtain ⟨ro2, acc2, sk2, who2⟩ := s2
  simp only [Spend.nullifier] at *
  have e1 := v1.spend.2
  have e2 := v2.spend.2
  have hfz : who1 ≠ who2 → E.xy ro.asset_def.policy.freezer_pk ≠ neutral := by
    intro hw
    cases who1 with
    | freezer => rw [f1]; exact v1.freezer rfl (c1 ▸ not_dummy)
    | user => cases who2 with
      | freezer => rw [f2]; exact v2.freezer rfl (c2 ▸ not_dummy)
      | user => exact absurd rfl hw
  unfold spendNullifier nullifyV
  rw [hc, position]
  congr 1
  cases who1 <;> cases who2 <;>
    simp only [spendPk, spendOtherPk, deriveUserAddressV] at e1 e2 ⊢
  · rw [← f1, ← f2]
    exact same_spender_key (e1.trans (o1.symm.trans o2)) e2 canonical
  · have hfn := hfz (by simp)
    unfold deriveNullifierKeyV
    rw [← f1, ← o2, if_neg hon, if_neg hfn, o1, ← e1, f2, ← e2, E.ecMul_xy, E.ecMul_xy, ← mul_nsmul, ← mul_nsmul,
      Nat.mul_comm]
  · have hfn := hfz (by simp)
    unfold deriveNullifierKeyV
    rw [← o1, ← f2, if_neg hon, if_neg hfn, o2, ← e2, f1, ← e1, E.ecMul_xy, E.ecMul_xy, ← mul_nsmul, ← mul_nsmul,
      Nat.mul_comm]
  · rw [← o1, ← o2]
    exact same_spender_key (e1.trans (f1.symm.trans f2)) e2 (fun h => absurd h owned)

/-! ### The negations -/

omit S in
/-- the other representative of a secret scalar -/
theorem alias_spend {ro : RecordOpening} {k : UserKeyPair} (owner : ro.pub_key.address = k.address)
    (fits : k.sk.val + E.r < 2 ^ E.scalarBits) (fits' : k.sk.val + E.r < E.p) :
    SpendOk ro.toV ((k.sk.val + E.r : ℕ) : F) .user ∧ ((k.sk.val + E.r : ℕ) : F) ≠ frToFq k.sk := by
  have hv : ((k.sk.val + E.r : ℕ) : F).val = k.sk.val + E.r := ZMod.val_natCast_of_lt fits'
  refine ⟨⟨?_, ?_⟩, fun h => ?_⟩
  · unfold okScalar; rw [hv]; exact fits
  · unfold deriveUserAddressV
    rw [hv, add_nsmul, E.r_smul, add_zero]
    show E.xy (k.sk.val • E.gen) = E.xy ro.pub_key.address
    rw [owner]; rfl
  · have := congrArg ZMod.val h
    rw [hv, frToFq_val] at this
    have := E.r_gt
    omega

/-- **Negation (1).**  Take a tree that holds a native record (leaf 0, to pay the fee 0) and a record `ro` (leaf 1) of
an asset without viewer and freezer, both owned by `k`, where `k + r` still fits in the bits of the gadget.  There are
two accepted transfers that spend `ro` at leaf 1 under the same root; their second nullifiers are
`prf k [1, commitment]` and `prf (k + r) [1, commitment]`: different, or the PRF collides on these keys. -/
theorem C10_alias_false (complete : SnarkComplete) {d : Fin 256} (hd : d.val ≠ 0) {pk : TransferProvingKey}
    {vk : TransferVerifyingKey} (keys : transferPreprocess 2 2 d = .ok (pk, vk)) {fee_ro ro : RecordOpening}
    {k : UserKeyPair} (fee_asset : fee_ro.asset_def = AssetDefinition.native)
    (fee_unfrozen : fee_ro.freeze_flag = .unfrozen) (fee_owner : fee_ro.pub_key.address = k.address)
    (fee_small : fee_ro.amount.val < 2 ^ 127) (ro_unfrozen : ro.freeze_flag = .unfrozen)
    (ro_owner : ro.pub_key.address = k.address) (ro_small : ro.amount.val < 2 ^ 127)
    (ro_code : ro.asset_def.code ≠ dummyCode)
    (ro_viewer : ro.asset_def.policy.viewer_pk = 0) (ro_freezer : ro.asset_def.policy.freezer_pk = 0)
    (fits : k.sk.val + E.r < 2 ^ E.scalarBits) (fits' : k.sk.val + E.r < E.p) :
    ∃ (n1 n2 : TransferNote) (s1 s2 : Spend), NoteSpends (.transfer n1) s1 ∧ NoteSpends (.transfer n2) s2 ∧
      (∀ t, n1.verify vk (pairRoot fee_ro.commitment ro.commitment (d.val - 1)) t = .ok ()) ∧
      (∀ t, n2.verify vk (pairRoot fee_ro.commitment ro.commitment (d.val - 1)) t = .ok ()) ∧
      s1.ro = ro.toV ∧ s2.ro = ro.toV ∧ s1.acc = s2.acc ∧
      s1.nullifier = E.prf (frToFq k.sk) [1, ro.commitment] ∧
      s2.nullifier = E.prf ((k.sk.val + E.r : ℕ) : F) [1, ro.commitment] ∧
      (s1.nullifier ≠ s2.nullifier ∨
        Collides (fun x => E.prf x [1, ro.commitment]) (frToFq k.sk) ((k.sk.val + E.r : ℕ) : F)) := by
  obtain ⟨e, he⟩ : ∃ e, d.val = e + 1 := ⟨d.val - 1, by omega⟩
  obtain ⟨ha, hne⟩ := alias_spend ro_owner fits fits'
  have hok : ∀ sk1, SpendOk ro.toV sk1 .user →
      (Forgery.pair fee_ro.toV ro.toV fee_ro.toV ro.toV (frToFq k.sk) sk1 e 0 (Fin.last _)).Ok d.val := by
    intro sk1 hs
    rw [he]
    refine Forgery.pair_ok ⟨FreezeFlag.toBool_eq_false.2 fee_unfrozen, native_toV fee_asset⟩
      ((SpendOk_user_host _ _).2 fee_owner) ⟨FreezeFlag.toBool_eq_false.2 ro_unfrozen, ro_code⟩
      hs ((isDummyViewingPk_host _).2 ro_viewer) ?_
      ⟨FreezeFlag.toBool_eq_false.2 fee_unfrozen, native_toV fee_asset⟩
      ⟨FreezeFlag.toBool_eq_false.2 ro_unfrozen, rfl⟩
      ?_ ?_ ⟨fun _ => ⟨?_, rfl⟩, fun _ => ?_⟩
    · rw [RecordOpening.toV, AssetPolicy.toV, RevealMap.toScalar_val]; exact RevealMap.toNat_lt _
    · rw [RecordOpening.toV, Amount.toF_val]; exact fee_small
    · rw [RecordOpening.toV, Amount.toF_val]; exact ro_small
    · simp only [Amount.toF_zero, add_zero]
    · simp only [Amount.toF_zero, add_zero]
  have nul : ∀ sk : F, Spend.nullifier ⟨ro.toV, accRight fee_ro.toV.commitment e, sk, .user⟩ =
      E.prf sk [1, ro.commitment] := by
    intro sk
    have hz : ro.toV.policy.freezer_pk = neutral := by
      show E.xy ro.asset_def.policy.freezer_pk = neutral
      rw [ro_freezer, E.xy_zero]; rfl
    show E.prf (deriveNullifierKeyV sk ro.toV.policy.freezer_pk) [1, ro.toV.commitment] = _
    rw [deriveNullifierKeyV, if_pos hz, RecordOpening.toV_commitment]
  have hroot : ∀ sk1, (Forgery.pair fee_ro.toV ro.toV fee_ro.toV ro.toV (frToFq k.sk) sk1 e 0 (Fin.last _)).root =
      pairRoot fee_ro.commitment ro.commitment (d.val - 1) := by
    intro sk1
    simp only [Forgery.pair, RecordOpening.toV_commitment]
    congr 1
    omega
  obtain ⟨π1, o1, v1⟩ := Forgery.accepted complete keys _ (hok _ ((SpendOk_user_host _ _).2 ro_owner))
  obtain ⟨π2, o2, v2⟩ := Forgery.accepted complete keys _ (hok _ ha)
  refine ⟨_, _, ⟨ro.toV, accRight fee_ro.toV.commitment e, frToFq k.sk, .user⟩,
    ⟨ro.toV, accRight fee_ro.toV.commitment e, ((k.sk.val + E.r : ℕ) : F), .user⟩,
    .transfer o1 (List.mem_cons_of_mem _ List.mem_cons_self), .transfer o2 (List.mem_cons_of_mem _ List.mem_cons_self),
    fun t => ?_, fun t => ?_, rfl, rfl, rfl, nul _, nul _, ?_⟩
  · rw [← hroot]; exact v1 t (Fin.le_last t)
  · rw [← hroot]; exact v2 t (Fin.le_last t)
  · rw [nul, nul]
    by_cases h : E.prf (frToFq k.sk) [1, ro.commitment] = E.prf ((k.sk.val + E.r : ℕ) : F) [1, ro.commitment]
    · exact Or.inr ⟨hne.symm, h⟩
    · exact Or.inl h

/-- **Negation (2).**  A record owned by the neutral address, of an asset with a freezer and without a viewer, can be
transferred by anyone and frozen by the freezer, in two accepted notes under the same root with different nullifiers
(or the PRF collides on the two named keys). -/
theorem C10_unowned_false (complete : SnarkComplete) {m : ℕ} {d : Fin 256} (hd : d.val ≠ 0) {pk : TransferProvingKey}
    {vk : TransferVerifyingKey} (keys : transferPreprocess 2 2 d = .ok (pk, vk)) {fpk : FreezeProvingKey}
    {fvk : FreezeVerifyingKey} (fkeys : freezePreprocess m d = .ok (fpk, fvk)) {fee_ro ro : RecordOpening}
    {k : UserKeyPair} (fee_asset : fee_ro.asset_def = AssetDefinition.native)
    (fee_unfrozen : fee_ro.freeze_flag = .unfrozen) (fee_owner : fee_ro.pub_key.address = k.address)
    (fee_small : fee_ro.amount.val < 2 ^ 127) (ro_unfrozen : ro.freeze_flag = .unfrozen)
    (ro_owner : ro.pub_key.address = 0) (ro_small : ro.amount.val < 2 ^ 127)
    (ro_code : ro.asset_def.code ≠ dummyCode) (ro_viewer : ro.asset_def.policy.viewer_pk = 0) {s : Fr}
    (ro_freezer : ro.asset_def.policy.freezer_pk = smulFr s E.gen) (hs : s ≠ 0)
    (hk : frToFq s ≠ E.hash3 0 1 0) :
    ∃ (n1 : TransferNote) (n2 : FreezeNote) (s1 s2 : Spend),
      NoteSpends (.transfer n1) s1 ∧ NoteSpends (.freeze n2) s2 ∧
      (∀ t, n1.verify vk (pairRoot fee_ro.commitment ro.commitment (d.val - 1)) t = .ok ()) ∧
      n2.verify fvk (pairRoot fee_ro.commitment ro.commitment (d.val - 1)) = .ok () ∧
      s1.ro = ro.toV ∧ s2.ro = ro.toV ∧ s1.acc = s2.acc ∧
      (s1.nullifier ≠ s2.nullifier ∨
        Collides (fun x => E.prf x [1, ro.commitment]) (frToFq s) (E.hash3 0 1 0)) := by
  obtain ⟨e, he⟩ : ∃ e, d.val = e + 1 := ⟨d.val - 1, by omega⟩
  have hun : unowned ro.toV = ro.toV := by
    have : neutral = ro.toV.owner_addr := by
      show neutral = E.xy ro.pub_key.address
      rw [ro_owner, E.xy_zero]; rfl
    unfold unowned
    rw [this]
  have key := C09_circuit_false ro.toV (accRight fee_ro.commitment e) hs
    (by show E.xy ro.asset_def.policy.freezer_pk = _; rw [ro_freezer]) hk
  rw [hun, RecordOpening.toV_commitment] at key
  obtain ⟨hu, hf, hset, hdiff⟩ := key
  have hok : (Forgery.pair fee_ro.toV ro.toV fee_ro.toV ro.toV (frToFq k.sk) 0 e 0 (Fin.last _)).Ok d.val := by
    rw [he]
    refine Forgery.pair_ok ⟨FreezeFlag.toBool_eq_false.2 fee_unfrozen, native_toV fee_asset⟩
      ((SpendOk_user_host _ _).2 fee_owner) ⟨FreezeFlag.toBool_eq_false.2 ro_unfrozen, ro_code⟩
      hu ((isDummyViewingPk_host _).2 ro_viewer) ?_
      ⟨FreezeFlag.toBool_eq_false.2 fee_unfrozen, native_toV fee_asset⟩
      ⟨FreezeFlag.toBool_eq_false.2 ro_unfrozen, rfl⟩
      ?_ ?_ ⟨fun _ => ⟨?_, rfl⟩, fun _ => ?_⟩
    · rw [RecordOpening.toV, AssetPolicy.toV, RevealMap.toScalar_val]; exact RevealMap.toNat_lt _
    · rw [RecordOpening.toV, Amount.toF_val]; exact fee_small
    · rw [RecordOpening.toV, Amount.toF_val]; exact ro_small
    · simp only [Amount.toF_zero, add_zero]
    · simp only [Amount.toF_zero, add_zero]
  obtain ⟨π1, o1, v1⟩ := Forgery.accepted complete keys _ hok
  obtain ⟨hm, -⟩ := freezePreprocess_key fkeys
  obtain ⟨j, rfl⟩ : ∃ j, m = ((⟨ro.toV, accRight fee_ro.commitment e, frToFq s,
      { ro.toV with freeze_flag := true }⟩ : FreezeInputV) ::
      List.replicate j (dummyFreezeInput d.val)).length + 1 := ⟨m - 2, by simp; omega⟩
  have hroot : spendRoot fee_ro.toV (accLeft ro.commitment e) = pairRoot fee_ro.commitment ro.commitment e := by
    rw [accLeft_root, RecordOpening.toV_commitment]
  obtain ⟨π2, o2, v2⟩ := freeze_forge complete fkeys (fee_ro := fee_ro) (k := k) (fee := 0)
    (acc := accLeft ro.commitment e) fee_asset fee_unfrozen fee_owner
    (by simp [accLeft, Forgery.edge_length, he])
    (by
      intro i hi
      rcases List.mem_cons.1 hi with rfl | hi
      · refine ⟨⟨?_, rfl, rfl, rfl, PolicyV.enforceEqual_iff.2 rfl⟩, Or.inl ?_, hf, Or.inl ?_,
          by simp [accRight, Forgery.edge_length, he]⟩
        · show boolF ro.freeze_flag.toBool + boolF true = 1
          rw [ro_unfrozen]
          simp [boolF, FreezeFlag.toBool]
        · simpa [PolicyV.isDummyFreezerPk] using hset
        · rw [hroot, accRight_root, RecordOpening.toV_commitment]
      · rw [List.eq_of_mem_replicate hi]
        exact dummyFreezeInput_ok _ _)
  have hde : d.val - 1 = e := by omega
  refine ⟨_, _, ⟨ro.toV, accRight fee_ro.commitment e, 0, .user⟩,
    ⟨ro.toV, accRight fee_ro.commitment e, frToFq s, .freezer⟩,
    .transfer o1 ?_, .freeze o2 (List.mem_cons_of_mem _ List.mem_cons_self), fun t => ?_, ?_, rfl, rfl, rfl, hdiff⟩
  · refine List.mem_cons_of_mem _ ?_
    show _ ∈ [(⟨ro.toV, accRight fee_ro.toV.commitment e, 0, .user⟩ : Spend)]
    rw [RecordOpening.toV_commitment]
    exact List.mem_cons_self
  · have := v1 t (Fin.le_last t)
    simp only [Forgery.pair, RecordOpening.toV_commitment] at this ⊢
    rw [hde]
    exact this
  · rw [hde, ← hroot]
    exact v2

/-! ### Generated notes -/

/-- A note made by the library that spends the record `ro` at the position `uid` and publishes `nf` in the place of
this record. -/
inductive GeneratedSpend : TransactionNote → RecordOpening → U64 → F → Prop
  | transfer {b rng inputs outputs pk valid_until extra n sk nf} {k : ℕ} {i : TransferNoteInput}
      (gen : TransferNote.generate b rng inputs outputs pk valid_until extra = .ok (n, sk))
      (hi : inputs[k]? = some i) (hn : n.inputs_nullifiers[k]? = some nf) :
      GeneratedSpend (.transfer n) i.ro i.acc.uid nf
  | mint {rng mint_ro ac_seed desc pk n sk} {fee : TxnFeeInfo}
      (gen : MintNote.generate rng mint_ro ac_seed desc fee pk = .ok (n, sk)) :
      GeneratedSpend (.mint n) fee.fee_input.ro fee.fee_input.acc.uid n.input_nullifier
  | freeze_fee {rng inputs pk n sk outs nf} {fee : TxnFeeInfo}
      (gen : FreezeNote.generate rng inputs fee pk = .ok (n, sk, outs)) (hn : n.input_nullifiers[0]? = some nf) :
      GeneratedSpend (.freeze n) fee.fee_input.ro fee.fee_input.acc.uid nf
  | freeze {rng inputs fee pk n sk outs nf} {k : ℕ} {i : FreezeNoteInput}
      (gen : FreezeNote.generate rng inputs fee pk = .ok (n, sk, outs))
      (hi : inputs[k]? = some i) (hn : n.input_nullifiers[k + 1]? = some nf) :
      GeneratedSpend (.freeze n) i.ro i.acc.uid nf

/-- who spends -/
theorem GeneratedSpend.who {n : TransactionNote} {ro : RecordOpening} {uid : U64} {nf : F}
    (h : GeneratedSpend n ro uid nf) (hd : ro.asset_def ≠ AssetDefinition.dummy) :
    (∃ k : UserKeyPair, ro.pub_key.address = k.address ∧
      nf = k.nullify ro.asset_def.policy.freezer_pk uid ro.commitment) ∨
    (∃ k : FreezerKeyPair, ro.asset_def.policy.freezer_pk = smulFr k.sec_key E.gen ∧
      ro.asset_def.policy.freezer_pk ≠ 0 ∧ nf = k.nullify ro.pub_key.address uid ro.commitment) := by
  cases h with
  | transfer gen hi hn =>
    rename_i b rng inputs outputs pk valid_until extra n sk k i
    refine Or.inl ⟨i.owner_keypair, (C08_transfer_generated gen i (List.mem_of_getElem? hi)).1, ?_⟩
    rw [transfer_nullifiers gen, List.getElem?_map, hi] at hn
    simpa [userNullifier] using hn.symm
  | mint gen =>
    rename_i rng mint_ro ac_seed desc pk n sk fee
    refine Or.inl ⟨fee.fee_input.owner_keypair, ?_, mint_nullifier gen⟩
    rw [(MintNote.generate_ok.1 gen).checks.owner]; rfl
  | freeze_fee gen hn =>
    rename_i rng inputs pk n sk outs fee
    refine Or.inl ⟨fee.fee_input.owner_keypair, freeze_fee_owner gen, ?_⟩
    rw [freeze_nullifiers gen] at hn
    simpa [userNullifier] using hn.symm
  | freeze gen hi hn =>
    rename_i rng inputs fee pk n sk outs k i
    obtain ⟨h1, h2⟩ := C07_generated gen i (List.mem_of_getElem? hi) hd
    refine Or.inr ⟨i.keypair, h2, by simpa [AssetPolicy.isFreezerPubKeySet] using h1, ?_⟩
    rw [freeze_nullifiers gen, List.getElem?_cons_succ, List.getElem?_map, hi] at hn
    simpa using hn.symm

/-- **Generated notes.**  Any two notes the library generates, of any kinds, that spend openings of the same commitment
with the same owner and asset at the same position publish the same nullifier for it. -/
theorem C10_generated_same {n1 n2 : TransactionNote} {ro ro' : RecordOpening} {uid : U64} {nf1 nf2 : F}
    (h1 : GeneratedSpend n1 ro uid nf1) (h2 : GeneratedSpend n2 ro' uid nf2)
    (same_address : ro.pub_key.address = ro'.pub_key.address) (same_asset : ro.asset_def = ro'.asset_def)
    (same_commitment : ro.commitment = ro'.commitment)
    (not_dummy : ro.asset_def ≠ AssetDefinition.dummy) : nf1 = nf2 := by
  have user : ∀ {a b : UserKeyPair}, ro.pub_key.address = a.address → ro.pub_key.address = b.address →
      a.sk = b.sk := fun ha hb => smulFr_gen_inj (ha.symm.trans hb)
  have mixed : ∀ (a : UserKeyPair) (b : FreezerKeyPair), ro.pub_key.address = a.address →
      ro.asset_def.policy.freezer_pk = smulFr b.sec_key E.gen → ro.asset_def.policy.freezer_pk ≠ 0 →
      a.nullify ro.asset_def.policy.freezer_pk uid ro.commitment =
        b.nullify ro.pub_key.address uid ro.commitment := by
    intro a b ha hb h0
    have := C09_library a ⟨b.sec_key, ro.asset_def.policy.freezer_pk⟩ hb h0 uid ro.commitment
    rw [ha]
    exact this
  have w2 := h2.who (same_asset ▸ not_dummy)
  rw [← same_address, ← same_asset, ← same_commitment] at w2
  rcases h1.who not_dummy with ⟨a, a1, rfl⟩ | ⟨a, a1, a0, rfl⟩ <;>
    rcases w2 with ⟨b, b1, rfl⟩ | ⟨b, b1, b0, rfl⟩
  · unfold UserKeyPair.nullify UserKeyPair.deriveNullifierKey
    rw [user a1 b1]
  · exact mixed a b a1 b1 b0
  · exact (mixed b a b1 a1 a0).symm
  · have : a.sec_key = b.sec_key := smulFr_gen_inj (a1.symm.trans b1)
    unfold FreezerKeyPair.nullify FreezerKeyPair.deriveNullifierKey
    rw [this]

/-- **Generated notes.**  Any two notes the library generates, of any kinds, that spend the same record at the same
position publish the same nullifier for it. -/
theorem C10_generated {n1 n2 : TransactionNote} {ro : RecordOpening} {uid : U64} {nf1 nf2 : F}
    (h1 : GeneratedSpend n1 ro uid nf1) (h2 : GeneratedSpend n2 ro uid nf2)
    (not_dummy : ro.asset_def ≠ AssetDefinition.dummy) : nf1 = nf2 :=
  C10_generated_same h1 h2 rfl rfl rfl not_dummy

end Cap

namespace Cap.Examples
open Toy Spec

/-- the example transfer, mint and freeze all spend Alice's native record as fee: the same nullifier -/
example : GeneratedSpend (.transfer xfrNote) feeRec acc0.uid (userNullifier feeRec acc0 alice) ∧
    GeneratedSpend (.mint mintNote) feeRec acc0.uid (userNullifier feeRec acc0 alice) ∧
    GeneratedSpend (.freeze frzNote) feeRec acc0.uid (userNullifier feeRec acc0 alice) := by
  refine ⟨.transfer (k := 0) (i := ⟨feeRec, acc0, alice, none⟩) xfrNote_eq rfl ?_, ?_,
    .freeze_fee (fee := feeInfo) frzNote_eq ?_⟩
  · rw [transfer_nullifiers xfrNote_eq]; rfl
  · have := GeneratedSpend.mint mintNote_eq
    rw [mint_nullifier mintNote_eq] at this
    exact this
  · rw [freeze_nullifiers frzNote_eq]; rfl

/-- the asset record is spent by its owner in the transfer and could be spent by the freezer -/
example : ∃ s, NoteSpends (.transfer xfrNote) s ∧ Reads assetRec s.ro ∧ s.sk.val < E.r ∧
    assetRec.asset_def.code ≠ dummyCode ∧ assetRec.pub_key.address ≠ 0 := by
  obtain ⟨w, h, hi, -⟩ := xfr_opens
  have hm : assetRec.toV ∈ w.toV.inputs.map (·.ro) := by rw [hi]; simp
  obtain ⟨i, h1, h2⟩ := List.mem_map.1 hm
  refine ⟨_, .transfer h (List.mem_map_of_mem h1), h2 ▸ Reads.toV _, ?_, by decide +kernel, by decide +kernel⟩
  obtain ⟨s, -, rfl⟩ := List.mem_map.1 h1
  show (frToFq _).val < _
  rw [frToFq_val]
  exact ZMod.val_lt _

/-- the hypotheses of the first negation, in the toy instantiation: Alice's native record, spent twice -/
example : ∃ (vk : TransferVerifyingKey) (n1 n2 : TransferNote) (s1 s2 : Spend),
    NoteSpends (.transfer n1) s1 ∧ NoteSpends (.transfer n2) s2 ∧
    (∀ t, n1.verify vk (pairRoot feeRec.commitment chgRec.commitment 0) t = .ok ()) ∧
    (∀ t, n2.verify vk (pairRoot feeRec.commitment chgRec.commitment 0) t = .ok ()) ∧
    s1.ro = chgRec.toV ∧ s2.ro = chgRec.toV ∧ s1.acc = s2.acc ∧ s1.nullifier ≠ s2.nullifier := by
  obtain ⟨pk, vk, keys⟩ : ∃ pk vk, transferPreprocess 2 2 1 = .ok (pk, vk) := ⟨_, _, rfl⟩
  obtain ⟨n1, n2, s1, s2, h1, h2, h3, h4, h5, h6, h7, h8, h9, -⟩ := C10_alias_false Toy.complete (d := 1) (by decide)
    keys (fee_ro := feeRec) (ro := chgRec) (k := alice) (by decide +kernel) (by decide +kernel) (by decide +kernel)
    (by decide +kernel) (by decide +kernel) (by decide +kernel) (by decide +kernel) (by decide +kernel)
    (by decide +kernel) (by decide +kernel) (by decide +kernel) (by decide +kernel)
  refine ⟨vk, n1, n2, s1, s2, h1, h2, h3, h4, h5, h6, h7, ?_⟩
  rw [h8, h9]
  decide +kernel

/-- a record of an asset with a freezer and without a viewer that belongs to nobody -/
def nobodys : RecordOpening :=
  ⟨50, ⟨asset.code, ⟨0, 0, freezer.pub_key, RevealMap.default, 0⟩⟩, ⟨0, E.aeadPkDefault⟩, .unfrozen, 3⟩

/-- the hypotheses of the second negation; in the toy instantiation the record is spent twice -/
example : ∃ (vk : TransferVerifyingKey) (fvk : FreezeVerifyingKey) (n1 : TransferNote) (n2 : FreezeNote)
    (s1 s2 : Spend), NoteSpends (.transfer n1) s1 ∧ NoteSpends (.freeze n2) s2 ∧
    (∀ t, n1.verify vk (pairRoot feeRec.commitment nobodys.commitment 0) t = .ok ()) ∧
    n2.verify fvk (pairRoot feeRec.commitment nobodys.commitment 0) = .ok () ∧
    s1.ro = nobodys.toV ∧ s2.ro = nobodys.toV ∧ s1.nullifier ≠ s2.nullifier := by
  obtain ⟨pk, vk, keys⟩ : ∃ pk vk, transferPreprocess 2 2 1 = .ok (pk, vk) := ⟨_, _, rfl⟩
  obtain ⟨fpk, fvk, fkeys⟩ : ∃ pk vk, freezePreprocess 3 1 = .ok (pk, vk) := ⟨_, _, rfl⟩
  obtain ⟨n1, n2, s1, s2, h1, h2, h3, h4, h5, h6, -, h8⟩ := C10_unowned_false Toy.complete (d := 1) (by decide)
    keys fkeys (fee_ro := feeRec) (ro := nobodys) (k := alice) (s := freezer.sec_key)
    (by decide +kernel) (by decide +kernel) (by decide +kernel) (by decide +kernel) (by decide +kernel)
    (by decide +kernel) (by decide +kernel) (by decide +kernel) (by decide +kernel) (by decide +kernel)
    (by decide +kernel) (by decide +kernel)
  refine ⟨vk, fvk, n1, n2, s1, s2, h1, h2, h3, h4, h5, h6, h8.resolve_right fun h => ?_⟩
  exact absurd h.2 (by decide +kernel)

end Cap.Examples
