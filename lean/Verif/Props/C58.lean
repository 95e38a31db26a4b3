/-
C58: whatever is submitted, no value comes into being and no record is spent twice.

status: partial
note: Histories of the reference ledger in which anybody submits any notes (the setting of C57). C58_value_partial and C58_once_partial: if the assignments behind the accepted notes pass three checks that the circuits do not make (spent records of a transfer have the asset code of the transfer; the change of a mint or freeze fits in 128 bits; secret scalars are below the order of the curve and no record of the neutral address is spent), then for every asset the unspent records are worth exactly what was granted and minted, and no position is spent twice. C58_honest: histories of notes made by the library pass the checks (a library user may still own the neutral address, with secret key 0). The claim without the checks is FALSE, for every instantiation: C58_alias_false (an owner with a small enough secret key spends both records twice and doubles everything), C58_code_false (any record of an asset without viewer becomes an equal amount of any other asset, e.g. native coins). For the third check see C44_accepted_false.
-/
import Verif.Props.C57
import Verif.Props.C52
import Verif.Props.C10

namespace Cap

open Spec

variable [E : CapEnv] [S : CapExt]

/-! ### With the checks -/

/-- **No value comes into being.** -/
theorem C58_value_partial {d : Fin 256} {h : List Step} {s : LedgerState} (ok : run d (h.map Step.event) = .ok s)
    (sat : AllSatisfied d h) (checked : ∀ e ∈ h, ∀ o ∈ e.txns, o.Checked)
    (hashes : NoCollisionV d (everCreated h) (everSpent h)) :
    ∀ c ≠ dummyCode, valueOf c (neverSpent h) = issued c (h.map Step.event) :=
  (inv1_run h ok sat checked hashes).value

/-- **No record is spent twice.** -/
theorem C58_once_partial {d : Fin 256} {h : List Step} {s : LedgerState} (ok : run d (h.map Step.event) = .ok s)
    (sat : AllSatisfied d h) (checked : ∀ e ∈ h, ∀ o ∈ e.txns, o.Checked)
    (hashes : NoCollisionV d (everCreated h) (everSpent h)) : (spentPositions h).Nodup :=
  (inv1_run h ok sat checked hashes).nodup

/-- **For a history of which only acceptance is known.**  There are assignments behind its notes; if they pass the
checks, value is preserved and nothing is spent twice. -/
theorem C58_accepted_partial (sound : SnarkSound) (batch : SnarkBatch) {d : Fin 256} {h : List Event} {s : LedgerState}
    (ok : run d h = .ok s) :
    ∃ h' : List Step, List.Forall₂ SameNotes h h' ∧ AllSatisfied d h' ∧
      (NoCollisionV d (everCreated h') (everSpent h') → (∀ e ∈ h', ∀ o ∈ e.txns, o.Checked) →
        (spentPositions h').Nodup ∧ ∀ c ≠ dummyCode, valueOf c (neverSpent h') = issued c h) := by
  obtain ⟨h', h1, h2, h3⟩ := C57_opened sound batch ok
  refine ⟨h', h1, h2, fun nc hc => ⟨C58_once_partial h3 h2 hc nc, fun c hd => ?_⟩⟩
  rw [C58_value_partial h3 h2 hc nc c hd]
  clear ok h2 h3 nc hc
  unfold issued
  induction h1 with
  | nil => rfl
  | cons hx _ ih =>
    rename_i e e' _ _ _
    simp only [List.map_cons, List.sum_cons, ih]
    congr 1
    cases e with
    | grant ro => cases e' with
      | grant ro' => cases hx; rfl
      | block => exact hx.elim
    | block ts b w t => cases e' with
      | grant => exact hx.elim
      | block os b' w' t' =>
        have e := congrArg (List.map (fun t : TransactionNote => match t with
          | .mint n => if n.mint_asset_def.code = c then n.mint_amount.val else 0
          | _ => 0)) hx.1
        rw [List.map_map, List.map_map] at e
        show mintedBy c (os.map _) = mintedBy c ts
        unfold mintedBy
        rw [List.map_map]
        exact congrArg List.sum e

/-- **Notes made by the library pass the checks.**  The remaining condition: no record of the neutral address is spent,
which a library user with secret key 0 could do. -/
theorem C58_honest {d : Fin 256} {h : List Event} (honest : Honest d h)
    (mints : ∀ e ∈ h, ∀ t ∈ e.txns, ∀ n, t.note = .mint n → n.mint_amount.val < 2 ^ 127)
    (owned : ∀ x ∈ spends h, x.1.pub_key.address ≠ 0)
    (short : ∀ e ∈ h, ∀ t ∈ e.txns, t.note.nullifiers.length < 2 ^ 64)
    (hashes : NoCollision d (created h) (spends h)) :
    ∃ h' : List Step, List.Forall₂ SameNotes h h' ∧ AllSatisfied d h' ∧
      NoCollisionV d (everCreated h') (everSpent h') ∧ ∀ e ∈ h', ∀ o ∈ e.txns, o.Checked := by
  obtain ⟨h', i1, i2, i3, i4, i5⟩ := opens_history honest mints
  refine ⟨h', i1, i2, by rw [i3]; exact noCollision_toV i4 hashes, ?_⟩
  intro e' he' o ho
  obtain ⟨j1, j2, j3⟩ := i5 e' he' o ho
  refine ⟨j1, j2, fun s hs => ⟨j3 s hs, ?_⟩, ?_⟩
  · have hm : s ∈ everSpent h' := List.mem_flatMap.2 ⟨e', he', List.mem_flatMap.2 ⟨o, ho, hs⟩⟩
    have := List.mem_map_of_mem (f := fun s : Spend => (s.ro, s.acc)) hm
    rw [i4] at this
    obtain ⟨x, hx, he⟩ := List.mem_map.1 this
    rw [Prod.mk.injEq] at he
    rw [← he.1]
    exact fun hz => owned x hx (xy_eq_neutral.1 hz)
  · obtain ⟨e, he, hs⟩ := forall₂_mem_right i1 e' he'
    cases e with
    | grant => cases e' with
      | grant => simp [Step.txns] at ho
      | block => exact hs.elim
    | block ts b w t => cases e' with
      | grant => exact hs.elim
      | block os b' w' t' =>
        have hm : o.note ∈ os.map Opening.note := List.mem_map_of_mem ho
        rw [hs.1] at hm
        obtain ⟨y, hy, hy'⟩ := List.mem_map.1 hm
        rw [← hy']
        exact short _ he y hy

/-! ### Without the checks -/

/-- a block of one transfer note that is accepted under a root of the ledger -/
theorem block_single (batch : SnarkBatch) {d : Fin 256} {s : LedgerState} {n : TransferNote} {w : TransferWit}
    {pk : TransferProvingKey} {vk : TransferVerifyingKey} {time : U64}
    (keys : transferPreprocess n.inputs_nullifiers.length n.output_commitments.length d = .ok (pk, vk))
    (verified : n.verify vk n.aux_info.merkle_root time = .ok ()) (root : n.aux_info.merkle_root ∈ s.roots)
    (nodup : n.inputs_nullifiers.Nodup) (fresh : ∀ x ∈ n.inputs_nullifiers, x ∉ s.nullifiers)
    (room : Room d.val s (n.output_commitments.length + 1)) (blind : F) (who : UserPubKey) :
    ∃ s', (Step.block [.transfer n w] blind who time).event.apply d s = .ok s' ∧
      s'.leaves = s.leaves ++ n.output_commitments ++ [(feeRecord who n.aux_info.fee blind).commitment] ∧
      s'.roots = treeRoot d.val s'.leaves :: s.roots ∧
      ∀ x, x ∈ s'.nullifiers ↔ x ∈ n.inputs_nullifiers ∨ x ∈ s.nullifiers := by
  have hval : validateTxnsBatch d s [.transfer n] time = .ok () := by
    refine (C51_any batch (by simp)).2 ⟨?_, ?_, ?_, ?_⟩
    · intro t ht; obtain rfl := List.mem_singleton.1 ht; exact root
    · simpa [TransactionNote.nullifiers] using nodup
    · intro t ht; obtain rfl := List.mem_singleton.1 ht; exact fresh
    · intro t ht
      obtain rfl := List.mem_singleton.1 ht
      refine ⟨.transfer vk, by simp only [keyForNote, keys, unwrapRes]; rfl, ?_⟩
      exact (checked_alone.1 (show VerifiesAlone time (.transfer n) n.aux_info.merkle_root (.transfer vk) from verified)).1
  have within : Room d.val s 0 := by
    obtain ⟨a, b⟩ := room
    exact ⟨by omega, by omega⟩
  have hfee : ((([.transfer n] : List TransactionNote).map (fun t => t.fee.val)).sum) = n.aux_info.fee.val := by
    simp [TransactionNote.fee]
  obtain ⟨c1, c2⟩ := C52_partial (b := ⟨[.transfer n], blind, who⟩) within
  have hok := c1.2 ⟨by simpa [TransactionNote.outputLen] using room, by
    show ((([.transfer n] : List TransactionNote).map (fun t => t.fee.val)).sum) < _
    rw [hfee]
    exact n.aux_info.fee.isLt⟩
  obtain ⟨fee, f1, f2, f3, f4⟩ := c2 hok
  have hfe : fee = n.aux_info.fee := Fin.ext (f1.trans hfee)
  subst hfe
  refine ⟨(insertBlockInPlace d.val ⟨[.transfer n], blind, who⟩ s).1, ?_, ?_, f3, ?_⟩
  · refine bind_ok_iff.2 ⟨(), hval, ?_⟩
    exact C52_same.2 (Prod.ext rfl hok)
  · rw [f2]
    simp [TransactionNote.outputCommitments]
  · intro x
    rw [f4]
    simp [TransactionNote.nullifiers]

omit S in
/-- a transfer of two granted records: the first stays as it is, the second becomes `out` -/
def swap (d : ℕ) (fee_ro ro out : RecordOpening) (sk0 sk1 : F) : Forgery :=
  { r0 := fee_ro.toV, r1 := ro.toV, sk0, sk1, acc0 := ⟨0, treePath d [fee_ro.commitment, ro.commitment] 0⟩,
    acc1 := ⟨1, treePath d [fee_ro.commitment, ro.commitment] 1⟩, cred1 := selfCred ((Fin.last _ : U64).val : F),
    o0 := fee_ro.toV, o1 := out.toV, code := out.asset_def.code, policy := ro.asset_def.policy.toV,
    root := treeRoot d [fee_ro.commitment, ro.commitment], fee := 0, valid_until := Fin.last _ }

omit S in
theorem swap_ok {d : ℕ} (hd : 1 ≤ d) {fee_ro ro out : RecordOpening} {sk0 sk1 : F}
    (fee_asset : fee_ro.asset_def = AssetDefinition.native) (fee_unfrozen : fee_ro.freeze_flag = .unfrozen)
    (fee_spend : SpendOk fee_ro.toV sk0 .user) (fee_small : fee_ro.amount.val < 2 ^ 127)
    (ro_unfrozen : ro.freeze_flag = .unfrozen) (ro_spend : SpendOk ro.toV sk1 .user) (ro_small : ro.amount.val < 2 ^ 127)
    (ro_code : ro.asset_def.code ≠ dummyCode) (ro_viewer : ro.asset_def.policy.viewer_pk = 0)
    (out_policy : out.asset_def.policy = ro.asset_def.policy) (out_unfrozen : out.freeze_flag = .unfrozen)
    (out_amount : out.amount = ro.amount) : (swap d fee_ro ro out sk0 sk1).Ok d := by
  have h3 : 3 ≤ 3 ^ d := le_trans (by norm_num) (Nat.pow_le_pow_right (by norm_num) hd)
  have hroot : ∀ {r : RecordOpening} {j : ℕ}, [fee_ro.commitment, ro.commitment][j]? = some r.commitment →
      spendRoot r.toV ⟨(j : F), treePath d [fee_ro.commitment, ro.commitment] j⟩ =
        treeRoot d [fee_ro.commitment, ro.commitment] := by
    intro r j hj
    unfold spendRoot
    rw [RecordOpening.toV_commitment]
    exact treePath_root (by simp only [List.length_cons, List.length_nil]; omega) hj
  have nat := native_toV fee_asset
  refine ⟨FreezeFlag.toBool_eq_false.2 fee_unfrozen, nat.1, nat.2, fee_spend, ?_, FreezeFlag.toBool_eq_false.2 ro_unfrozen,
    Or.inl ⟨ro_code, rfl, ?_⟩, ro_spend, treePath_length _ _ _, treePath_length _ _ _, (Forgery.selfCred_ok _).1,
    (Forgery.selfCred_ok _).2, Or.inr (selfCred_valid _), FreezeFlag.toBool_eq_false.2 fee_unfrozen, nat.1, nat.2, ?_,
    FreezeFlag.toBool_eq_false.2 out_unfrozen, rfl, congrArg AssetPolicy.toV out_policy, ?_,
    Or.inl ((isDummyViewingPk_host _).2 ro_viewer), ?_, ?_⟩
  · have := hroot (r := fee_ro) (j := 0) rfl
    rwa [Nat.cast_zero] at this
  · have := hroot (r := ro) (j := 1) rfl
    rwa [Nat.cast_one] at this
  · show (Amount.toF fee_ro.amount).val < _
    rw [Amount.toF_val]; exact fee_small
  · show (Amount.toF out.amount).val < _
    rw [Amount.toF_val, out_amount]; exact ro_small
  · show (RevealMap.toScalar _).val < _
    rw [RevealMap.toScalar_val]; exact RevealMap.toNat_lt _
  · have e : Amount.toF (0 : Amount) = (0 : F) := Amount.toF_zero
    refine ⟨fun _ => ⟨?_, ?_⟩, fun _ => ?_⟩
    · show Amount.toF fee_ro.amount = Amount.toF fee_ro.amount + Amount.toF 0
      rw [e, add_zero]
    · show Amount.toF ro.amount = Amount.toF out.amount
      rw [out_amount]
    · show Amount.toF fee_ro.amount + Amount.toF ro.amount = Amount.toF fee_ro.amount + Amount.toF out.amount + Amount.toF 0
      rw [e, add_zero, out_amount]

omit S in
theorem swap_nullifiers {d : ℕ} {fee_ro ro out : RecordOpening} {sk0 sk1 : F}
    (fee_asset : fee_ro.asset_def = AssetDefinition.native) (ro_freezer : ro.asset_def.policy.freezer_pk = 0) :
    spendNullifier (swap d fee_ro ro out sk0 sk1).r0 (swap d fee_ro ro out sk0 sk1).acc0 sk0 .user =
        E.prf sk0 [0, fee_ro.commitment] ∧
      spendNullifier (swap d fee_ro ro out sk0 sk1).r1 (swap d fee_ro ro out sk0 sk1).acc1 sk1 .user =
        E.prf sk1 [1, ro.commitment] := by
  have key : ∀ (r : RecordOpening) (sk : F), r.asset_def.policy.freezer_pk = 0 →
      deriveNullifierKeyV sk r.toV.policy.freezer_pk = sk := by
    intro r sk hr
    have hz : r.toV.policy.freezer_pk = neutral := by
      show E.xy r.asset_def.policy.freezer_pk = neutral
      rw [hr, E.xy_zero]; rfl
    rw [deriveNullifierKeyV, if_pos hz]
  constructor
  · show E.prf (deriveNullifierKeyV sk0 fee_ro.toV.policy.freezer_pk) [0, fee_ro.toV.commitment] = _
    rw [key _ _ (by rw [fee_asset]; rfl), RecordOpening.toV_commitment]
  · show E.prf (deriveNullifierKeyV sk1 ro.toV.policy.freezer_pk) [1, ro.toV.commitment] = _
    rw [key _ _ ro_freezer, RecordOpening.toV_commitment]

theorem swap_real {d : ℕ} {fee_ro ro out : RecordOpening} {sk0 sk1 : F} {π : S.Proof}
    (fee_asset : fee_ro.asset_def = AssetDefinition.native) (ro_code : ro.asset_def.code ≠ dummyCode) :
    (Opening.transfer ((swap d fee_ro ro out sk0 sk1).note π) (swap d fee_ro ro out sk0 sk1).wit).realSpends =
      [⟨fee_ro.toV, ⟨0, treePath d [fee_ro.commitment, ro.commitment] 0⟩, sk0, .user⟩,
        ⟨ro.toV, ⟨1, treePath d [fee_ro.commitment, ro.commitment] 1⟩, sk1, .user⟩] := by
  refine List.filter_eq_self.2 ?_
  intro x hx
  simp only [Opening.spends, TransferWit.spends, Forgery.wit, swap, List.map_cons, List.map_nil, List.mem_cons,
    List.not_mem_nil, or_false] at hx
  rcases hx with rfl | rfl
  · refine decide_eq_true ?_
    show fee_ro.asset_def.code ≠ dummyCode
    rw [fee_asset]
    exact native_ne_dummy
  · exact decide_eq_true ro_code

theorem swap_same {d : ℕ} {fee_ro ro : RecordOpening} {sk0 sk1 : F} {π : S.Proof} :
    (Opening.transfer ((swap d fee_ro ro ro sk0 sk1).note π) (swap d fee_ro ro ro sk0 sk1).wit).SameCode := by
  intro i hi _
  obtain rfl := List.mem_singleton.1 (show i ∈ [_] from hi)
  rfl

omit S in
theorem val_one : (1 : F).val = 1 := by
  have := ZMod.val_natCast_of_lt (n := E.p) (a := 1) (by have := E.p_gt; omega)
  rwa [Nat.cast_one] at this

/-- the ledger after two grants -/
theorem two_grants {d : Fin 256} (deep : 2 ≤ d.val) (r0 r1 : RecordOpening) :
    ∃ s, run d [.grant r0, .grant r1] = .ok s ∧ s.leaves = [r0.commitment, r1.commitment] ∧
      treeRoot d.val [r0.commitment, r1.commitment] ∈ s.roots ∧ s.nullifiers = [] := by
  have h9 : 9 ≤ 3 ^ d.val := le_trans (by norm_num) (Nat.pow_le_pow_right (by norm_num) deep)
  have h64 : (4 : ℕ) < 2 ^ 64 := by norm_num
  refine ⟨⟨[r0.commitment, r1.commitment], [],
    [treeRoot d.val [r0.commitment, r1.commitment], treeRoot d.val [r0.commitment], treeRoot d.val []]⟩, ?_, rfl,
    List.mem_cons_self, rfl⟩
  refine bind_ok_iff.2 ⟨⟨[r0.commitment], [], [treeRoot d.val [r0.commitment], treeRoot d.val []]⟩, ?_,
    bind_ok_iff.2 ⟨_, ?_, rfl⟩⟩
  · show LedgerState.grant d.val (LedgerState.new d.val) r0 = _
    unfold LedgerState.grant LedgerState.insertRecord
    rw [if_pos ⟨by simp only [LedgerState.new, LedgerState.storeRoot, List.length_nil]; omega, by
      simp [LedgerState.new, LedgerState.storeRoot]⟩]
    rfl
  · show LedgerState.grant d.val _ r1 = _
    unfold LedgerState.grant LedgerState.insertRecord
    rw [if_pos ⟨by simp only [List.length_singleton]; omega, by simp only [List.length_singleton]; omega⟩]
    rfl

omit S in
theorem feeRecord_zero (c : F) (who : UserPubKey) (blind : F) : weightV c (feeRecord who 0 blind).toV = 0 := by
  have e : (Amount.toF (0 : Amount) : F) = 0 := Amount.toF_zero
  show (if _ then (Amount.toF (0 : Amount)).val else 0) = 0
  rw [e, ZMod.val_zero, ite_self]

omit S in
theorem weight_host (c : F) (r : RecordOpening) :
    weightV c r.toV = if r.asset_def.code = c then r.amount.val else 0 := by
  show (if r.asset_def.code = c then (Amount.toF r.amount).val else 0) = _
  rw [Amount.toF_val]

/-- **Negation (1): everything is doubled.**  A native record and a record of an asset without viewer and freezer (or
another native one), both owned by `k`, where `k + r` still fits in the bits of the gadget.  Two blocks, with one accepted
transfer each, spend both records twice; afterwards the unspent records are worth twice what was granted, for every asset.
The four nullifiers are assumed to be distinct.  The notes pass the first two of the missing checks. -/
theorem C58_alias_false (complete : SnarkComplete) (batch : SnarkBatch) {d : Fin 256} (deep : 2 ≤ d.val)
    {pk : TransferProvingKey} {vk : TransferVerifyingKey} (keys : transferPreprocess 2 2 d = .ok (pk, vk))
    {fee_ro ro : RecordOpening} {k : UserKeyPair} (fee_asset : fee_ro.asset_def = AssetDefinition.native)
    (fee_unfrozen : fee_ro.freeze_flag = .unfrozen) (fee_owner : fee_ro.pub_key.address = k.address)
    (fee_small : fee_ro.amount.val < 2 ^ 127) (ro_unfrozen : ro.freeze_flag = .unfrozen)
    (ro_owner : ro.pub_key.address = k.address) (ro_small : ro.amount.val < 2 ^ 127)
    (ro_code : ro.asset_def.code ≠ dummyCode)
    (ro_viewer : ro.asset_def.policy.viewer_pk = 0) (ro_freezer : ro.asset_def.policy.freezer_pk = 0)
    (fits : k.sk.val + E.r < 2 ^ E.scalarBits) (fits' : k.sk.val + E.r < E.p)
    (distinct : [E.prf (frToFq k.sk) [0, fee_ro.commitment], E.prf (frToFq k.sk) [1, ro.commitment],
      E.prf ((k.sk.val + E.r : ℕ) : F) [0, fee_ro.commitment],
      E.prf ((k.sk.val + E.r : ℕ) : F) [1, ro.commitment]].Nodup)
    (blind1 blind2 : F) (who1 who2 : UserPubKey) (time1 time2 : U64) :
    ∃ (o1 o2 : Opening) (s : LedgerState) (h : List Step),
      h = [.grant fee_ro, .grant ro, .block [o1] blind1 who1 time1, .block [o2] blind2 who2 time2] ∧
      run d (h.map Step.event) = .ok s ∧ AllSatisfied d h ∧ (∀ e ∈ h, ∀ o ∈ e.txns, o.SameCode ∧ o.ChangeFits) ∧
      spentPositions h = [0, 1, 0, 1] ∧ ∀ c, valueOf c (neverSpent h) = 2 * issued c (h.map Step.event) := by
  obtain ⟨s2, hs2, l2, r2, n2⟩ := two_grants deep fee_ro ro
  obtain ⟨ha, -⟩ := alias_spend ro_owner fits fits'
  obtain ⟨ha0, -⟩ := alias_spend fee_owner fits fits'
  have h9 : 9 ≤ 3 ^ d.val := le_trans (by norm_num) (Nat.pow_le_pow_right (by norm_num) deep)
  have h64 : (9 : ℕ) < 2 ^ 64 := by norm_num
  obtain ⟨π1, p1, v1⟩ := Forgery.accepted complete keys _ (swap_ok (d := d.val) (by omega) fee_asset fee_unfrozen
    ((SpendOk_user_host _ _).2 fee_owner) fee_small ro_unfrozen ((SpendOk_user_host _ _).2 ro_owner) ro_small ro_code
    ro_viewer (out := ro) rfl ro_unfrozen rfl)
  obtain ⟨π2, p2, v2⟩ := Forgery.accepted complete keys _ (swap_ok (d := d.val) (by omega) fee_asset fee_unfrozen
    ha0 fee_small ro_unfrozen ha ro_small ro_code ro_viewer (out := ro) rfl ro_unfrozen rfl)
  obtain ⟨q1, q2⟩ := swap_nullifiers (d := d.val) (out := ro) (sk0 := frToFq k.sk) (sk1 := frToFq k.sk) fee_asset ro_freezer
  obtain ⟨q3, q4⟩ := swap_nullifiers (d := d.val) (out := ro) (sk0 := ((k.sk.val + E.r : ℕ) : F))
    (sk1 := ((k.sk.val + E.r : ℕ) : F)) fee_asset ro_freezer
  have nul1 : ((swap d.val fee_ro ro ro (frToFq k.sk) (frToFq k.sk)).note π1).inputs_nullifiers =
      [E.prf (frToFq k.sk) [0, fee_ro.commitment], E.prf (frToFq k.sk) [1, ro.commitment]] := by
    rw [← q1, ← q2]; rfl
  have nul2 : ((swap d.val fee_ro ro ro ((k.sk.val + E.r : ℕ) : F) ((k.sk.val + E.r : ℕ) : F)).note π2).inputs_nullifiers =
      [E.prf ((k.sk.val + E.r : ℕ) : F) [0, fee_ro.commitment], E.prf ((k.sk.val + E.r : ℕ) : F) [1, ro.commitment]] := by
    rw [← q3, ← q4]; rfl
  simp only [List.nodup_cons, List.mem_cons, List.not_mem_nil, or_false, not_or, not_false_eq_true, List.nodup_nil,
    and_true] at distinct
  obtain ⟨⟨d1, d2, d3⟩, ⟨d4, d5⟩, d6⟩ := distinct
  obtain ⟨s3, a3, l3, r3, n3⟩ := block_single batch (s := s2) (time := time1)
    (w := (swap d.val fee_ro ro ro (frToFq k.sk) (frToFq k.sk)).wit) (n := (swap d.val fee_ro ro ro (frToFq k.sk) (frToFq k.sk)).note π1) keys (v1 _ (Fin.le_last _)) r2
    (by rw [nul1]; simpa using d1) (by rw [n2]; simp)
    (by
      rw [Room, l2]
      show 2 + (2 + 1) ≤ _ ∧ 2 + (2 + 1) < _
      omega) blind1 who1
  obtain ⟨s4, a4, l4, r4, n4⟩ := block_single batch (s := s3) (time := time2)
    (w := (swap d.val fee_ro ro ro ((k.sk.val + E.r : ℕ) : F) ((k.sk.val + E.r : ℕ) : F)).wit)
    (n := (swap d.val fee_ro ro ro ((k.sk.val + E.r : ℕ) : F) ((k.sk.val + E.r : ℕ) : F)).note π2) keys
    (v2 _ (Fin.le_last _)) (by rw [r3]; exact List.mem_cons_of_mem _ r2)
    (by rw [nul2]; simpa using d6)
    (by
      rw [nul2]
      intro x hx
      rw [n3, nul1, n2]
      simp only [List.mem_cons, List.not_mem_nil, or_false] at hx ⊢
      rcases hx with rfl | rfl
      · exact fun h => h.elim (fun h => d2 h.symm) (fun h => d4 h.symm)
      · exact fun h => h.elim (fun h => d3 h.symm) (fun h => d5 h.symm))
    (by
      rw [Room, l3, l2]
      show 5 + (2 + 1) ≤ _ ∧ 5 + (2 + 1) < _
      omega) blind2 who2
  have hrun := runFrom_append.2 ⟨s3, runFrom_append.2 ⟨s2, hs2, a3⟩, a4⟩
  refine ⟨.transfer ((swap d.val fee_ro ro ro (frToFq k.sk) (frToFq k.sk)).note π1)
      (swap d.val fee_ro ro ro (frToFq k.sk) (frToFq k.sk)).wit,
    .transfer ((swap d.val fee_ro ro ro ((k.sk.val + E.r : ℕ) : F) ((k.sk.val + E.r : ℕ) : F)).note π2)
      (swap d.val fee_ro ro ro ((k.sk.val + E.r : ℕ) : F) ((k.sk.val + E.r : ℕ) : F)).wit,
    s4, _, rfl, hrun, ?_, ?_, ?_, ?_⟩
  · intro e he o ho
    simp only [List.mem_cons, List.not_mem_nil, or_false] at he
    rcases he with rfl | rfl | rfl | rfl
    · simp [Step.txns] at ho
    · simp [Step.txns] at ho
    · obtain rfl := List.mem_singleton.1 ho; exact p1
    · obtain rfl := List.mem_singleton.1 ho; exact p2
  · intro e he o ho
    simp only [List.mem_cons, List.not_mem_nil, or_false] at he
    rcases he with rfl | rfl | rfl | rfl
    · simp [Step.txns] at ho
    · simp [Step.txns] at ho
    · obtain rfl := List.mem_singleton.1 ho; exact ⟨swap_same, trivial⟩
    · obtain rfl := List.mem_singleton.1 ho; exact ⟨swap_same, trivial⟩
  · show List.map _ ((Opening.realSpends _ ++ []) ++ ((Opening.realSpends _ ++ []) ++ [])) = _
    rw [swap_real fee_asset ro_code, swap_real fee_asset ro_code]
    rfl
  · intro c
    have hpos : spentPositions [.grant fee_ro, .grant ro, .block [.transfer ((swap d.val fee_ro ro ro (frToFq k.sk) (frToFq k.sk)).note π1)
      (swap d.val fee_ro ro ro (frToFq k.sk) (frToFq k.sk)).wit] blind1 who1 time1,
      .block [.transfer ((swap d.val fee_ro ro ro ((k.sk.val + E.r : ℕ) : F) ((k.sk.val + E.r : ℕ) : F)).note π2)
      (swap d.val fee_ro ro ro ((k.sk.val + E.r : ℕ) : F) ((k.sk.val + E.r : ℕ) : F)).wit] blind2 who2 time2] =
        [0, 1, 0, 1] := by
      show List.map _ ((Opening.realSpends _ ++ []) ++ ((Opening.realSpends _ ++ []) ++ [])) = _
      rw [swap_real fee_asset ro_code, swap_real fee_asset ro_code]
      rfl
    rw [neverSpent_value (by show 8 < 2 ^ 64; norm_num), hpos]
    show leftOf (weightV c) _ [fee_ro.toV, ro.toV, fee_ro.toV, ro.toV, (feeRecord who1 0 blind1).toV,
      fee_ro.toV, ro.toV, (feeRecord who2 0 blind2).toV] 0 =
        2 * ((if fee_ro.asset_def.code = c then fee_ro.amount.val else 0) +
          ((if ro.asset_def.code = c then ro.amount.val else 0) + (0 + (0 + 0))))
    simp only [leftOf_cons, feeRecord_zero, weight_host, List.map_cons, List.map_nil, ZMod.val_zero, val_one,
      List.mem_cons, List.not_mem_nil, or_false, leftOf, List.zipIdx_nil, List.sum_nil]
    norm_num
    rw [feeRecord_zero, feeRecord_zero, weight_host, weight_host]
    ring

/-- **Negation (2): anything becomes anything.**  A native record and a record of an asset without viewer and freezer, with
any owners.  One block with one accepted transfer turns the second record into the same amount of another asset, with any
code (for example the native code, if the policy is the empty one): of that asset there is now
more than was granted and minted.  The two nullifiers are assumed to be distinct.  The note passes the second of the
missing checks and uses secret scalars below the order of the curve. -/
theorem C58_code_false (complete : SnarkComplete) (batch : SnarkBatch) {d : Fin 256} (deep : 2 ≤ d.val)
    {pk : TransferProvingKey} {vk : TransferVerifyingKey} (keys : transferPreprocess 2 2 d = .ok (pk, vk))
    {fee_ro ro : RecordOpening} {k0 k1 : UserKeyPair} (fee_asset : fee_ro.asset_def = AssetDefinition.native)
    (fee_unfrozen : fee_ro.freeze_flag = .unfrozen) (fee_owner : fee_ro.pub_key.address = k0.address)
    (fee_small : fee_ro.amount.val < 2 ^ 127) (ro_unfrozen : ro.freeze_flag = .unfrozen)
    (ro_owner : ro.pub_key.address = k1.address) (ro_small : ro.amount.val < 2 ^ 127)
    (ro_code : ro.asset_def.code ≠ dummyCode)
    (ro_viewer : ro.asset_def.policy.viewer_pk = 0) (ro_freezer : ro.asset_def.policy.freezer_pk = 0)
    (distinct : E.prf (frToFq k0.sk) [0, fee_ro.commitment] ≠ E.prf (frToFq k1.sk) [1, ro.commitment])
    {c : AssetCode} (other : c ≠ ro.asset_def.code) (blind : F) (who : UserPubKey) (time : U64) :
    ∃ (o : Opening) (s : LedgerState) (h : List Step), h = [.grant fee_ro, .grant ro, .block [o] blind who time] ∧
      run d (h.map Step.event) = .ok s ∧ AllSatisfied d h ∧
      (∀ e ∈ h, ∀ o ∈ e.txns, o.ChangeFits ∧ ∀ x ∈ o.spends, x.sk.val < E.r) ∧ spentPositions h = [0, 1] ∧
      valueOf c (neverSpent h) = issued c (h.map Step.event) + ro.amount.val ∧
      valueOf ro.asset_def.code (neverSpent h) + ro.amount.val = issued ro.asset_def.code (h.map Step.event) := by
  obtain ⟨s2, hs2, l2, r2, n2⟩ := two_grants deep fee_ro ro
  have h9 : 9 ≤ 3 ^ d.val := le_trans (by norm_num) (Nat.pow_le_pow_right (by norm_num) deep)
  have h64 : (9 : ℕ) < 2 ^ 64 := by norm_num
  obtain ⟨out, ho⟩ : ∃ out : RecordOpening, out = { ro with asset_def := ⟨c, ro.asset_def.policy⟩ } := ⟨_, rfl⟩
  have out_code : out.asset_def.code = c := by rw [ho]
  have out_amount : out.amount = ro.amount := by rw [ho]
  obtain ⟨π, p1, v1⟩ := Forgery.accepted complete keys _ (swap_ok (d := d.val) (by omega) fee_asset fee_unfrozen
    ((SpendOk_user_host _ _).2 fee_owner) fee_small ro_unfrozen ((SpendOk_user_host _ _).2 ro_owner) ro_small ro_code
    ro_viewer (out := out) (by rw [ho]) (by rw [ho]; exact ro_unfrozen) out_amount)
  obtain ⟨q1, q2⟩ := swap_nullifiers (d := d.val) (out := out) (sk0 := frToFq k0.sk) (sk1 := frToFq k1.sk) fee_asset ro_freezer
  have nul1 : ((swap d.val fee_ro ro out (frToFq k0.sk) (frToFq k1.sk)).note π).inputs_nullifiers =
      [E.prf (frToFq k0.sk) [0, fee_ro.commitment], E.prf (frToFq k1.sk) [1, ro.commitment]] := by
    rw [← q1, ← q2]; rfl
  obtain ⟨s3, a3, l3, r3, n3⟩ := block_single batch (s := s2) (time := time)
    (w := (swap d.val fee_ro ro out (frToFq k0.sk) (frToFq k1.sk)).wit)
    (n := (swap d.val fee_ro ro out (frToFq k0.sk) (frToFq k1.sk)).note π) keys (v1 _ (Fin.le_last _)) r2
    (by rw [nul1]; simpa using distinct) (by rw [n2]; simp)
    (by
      rw [Room, l2]
      show 2 + (2 + 1) ≤ _ ∧ 2 + (2 + 1) < _
      omega) blind who
  have hrun := runFrom_append.2 ⟨s2, hs2, a3⟩
  have hpos : spentPositions [.grant fee_ro, .grant ro, .block
      [.transfer ((swap d.val fee_ro ro out (frToFq k0.sk) (frToFq k1.sk)).note π)
        (swap d.val fee_ro ro out (frToFq k0.sk) (frToFq k1.sk)).wit] blind who time] = [0, 1] := by
    show List.map _ ((Opening.realSpends _ ++ []) ++ []) = _
    rw [swap_real fee_asset ro_code]
    rfl
  have hval : ∀ a, valueOf a (neverSpent [.grant fee_ro, .grant ro, .block
      [.transfer ((swap d.val fee_ro ro out (frToFq k0.sk) (frToFq k1.sk)).note π)
        (swap d.val fee_ro ro out (frToFq k0.sk) (frToFq k1.sk)).wit] blind who time]) =
        (if fee_ro.asset_def.code = a then fee_ro.amount.val else 0) + (if c = a then ro.amount.val else 0) := by
    intro a
    rw [neverSpent_value (by show 5 < 2 ^ 64; norm_num), hpos]
    show leftOf (weightV a) _ [fee_ro.toV, ro.toV, fee_ro.toV, out.toV, (feeRecord who 0 blind).toV] 0 = _
    simp only [leftOf_cons, List.map_cons, List.map_nil, ZMod.val_zero, val_one,
      List.mem_cons, List.not_mem_nil, or_false, leftOf, List.zipIdx_nil, List.sum_nil]
    norm_num
    rw [feeRecord_zero, weight_host, weight_host, out_code, out_amount, add_zero]
  have hiss : ∀ a, issued a (List.map Step.event [.grant fee_ro, .grant ro, .block
      [.transfer ((swap d.val fee_ro ro out (frToFq k0.sk) (frToFq k1.sk)).note π)
        (swap d.val fee_ro ro out (frToFq k0.sk) (frToFq k1.sk)).wit] blind who time]) =
        (if fee_ro.asset_def.code = a then fee_ro.amount.val else 0) +
          ((if ro.asset_def.code = a then ro.amount.val else 0) + (0 + 0)) := fun a => rfl
  refine ⟨.transfer ((swap d.val fee_ro ro out (frToFq k0.sk) (frToFq k1.sk)).note π)
      (swap d.val fee_ro ro out (frToFq k0.sk) (frToFq k1.sk)).wit, s3, _, rfl, hrun, ?_, ?_, hpos, ?_, ?_⟩
  · intro e he o ho
    simp only [List.mem_cons, List.not_mem_nil, or_false] at he
    rcases he with rfl | rfl | rfl
    · simp [Step.txns] at ho
    · simp [Step.txns] at ho
    · obtain rfl := List.mem_singleton.1 ho; exact p1
  · intro e he o ho
    simp only [List.mem_cons, List.not_mem_nil, or_false] at he
    rcases he with rfl | rfl | rfl
    · simp [Step.txns] at ho
    · simp [Step.txns] at ho
    · obtain rfl := List.mem_singleton.1 ho
      refine ⟨trivial, fun x hx => ?_⟩
      simp only [Opening.spends, TransferWit.spends, Forgery.wit, swap, List.map_cons, List.map_nil, List.mem_cons,
        List.not_mem_nil, or_false] at hx
      rcases hx with rfl | rfl
      · exact frToFq_lt _
      · exact frToFq_lt _
  · rw [hval, hiss, if_pos rfl, if_neg (Ne.symm other)]
    omega
  · rw [hval, hiss, if_neg other, if_pos rfl]
    omega

end Cap

namespace Cap.Examples
open Toy Spec

/-- the history of C57 passes the checks -/
theorem steps_checked : ∀ e ∈ steps, ∀ o ∈ e.txns, o.Checked := by
  have hown : ∀ x ∈ everSpent steps, x.ro.owner_addr ≠ neutral := by
    intro x hx
    have hm := List.mem_map_of_mem (f := fun s : Spend => (s.ro, s.acc)) hx
    rw [steps_spends, hist_spends] at hm
    simp only [spends1, List.map_cons, List.map_nil, List.mem_cons, List.not_mem_nil, or_false] at hm
    rcases hm with h | h
    · rw [(Prod.mk.inj h).1]; decide +kernel
    · rw [(Prod.mk.inj h).1]; decide +kernel
  have hm1 : ∀ s ∈ open1.realSpends, s ∈ everSpent steps := by
    intro s hs
    show s ∈ open1.realSpends ++ [] ++ (open2.realSpends ++ [] ++ [])
    simp [hs]
  have hm2 : ∀ s ∈ open2.realSpends, s ∈ everSpent steps := by
    intro s hs
    show s ∈ open1.realSpends ++ [] ++ (open2.realSpends ++ [] ++ [])
    simp [hs]
  refine steps_mem ⟨open1_ok.same_code, open1_ok.change_fits, ?_, ?_⟩ ⟨open2_ok.same_code, open2_ok.change_fits, ?_, ?_⟩
  · exact fun s hs => ⟨open1_ok.canonical s (List.mem_filter.1 hs).1, hown s (hm1 s hs)⟩
  · rw [open1_ok.note]
    show note1.inputs_nullifiers.length < _
    rw [note1_nullifiers]
    norm_num
  · exact fun s hs => ⟨open2_ok.canonical s (List.mem_filter.1 hs).1, hown s (hm2 s hs)⟩
  · rw [open2_ok.note]
    show 1 < _
    norm_num

/-- the hypotheses of `C58_value_partial` and `C58_once_partial`; 100 native coins were granted, 1050 units of the asset
granted and minted -/
example : run 2 (steps.map Step.event) = .ok led2 ∧ AllSatisfied 2 steps ∧ (∀ e ∈ steps, ∀ o ∈ e.txns, o.Checked) ∧
    NoCollisionV 2 (everCreated steps) (everSpent steps) ∧ issued nativeCode hist = 100 ∧ issued asset.code hist = 1050 := by
  refine ⟨steps_run, steps_satisfied, steps_checked, steps_noCollision, ?_, ?_⟩
  · decide +kernel
  · decide +kernel

example : SnarkSound ∧ SnarkBatch ∧ run 2 hist = .ok led2 := ⟨Toy.sound, Toy.batch, hist_run⟩

/-- the hypotheses of `C58_honest` -/
example : Honest 2 hist ∧ (∀ x ∈ spends hist, x.1.pub_key.address ≠ 0) ∧ NoCollision 2 (created hist) (spends hist) := by
  refine ⟨hist_honest, ?_, hist_noCollision⟩
  rw [hist_spends]
  decide +kernel

/-- keys for two inputs and two outputs -/
theorem keys22 : ∃ pk vk, transferPreprocess 2 2 2 = .ok (pk, vk) := ⟨_, _, rfl⟩

/-- everything is doubled in the toy instantiation: Alice has two native records -/
example : ∃ (o1 o2 : Opening) (s : LedgerState) (h : List Step),
    h = [.grant feeRec, .grant chgRec, .block [o1] 47 bob.pubKey 700, .block [o2] 49 bob.pubKey 701] ∧
    run 2 (h.map Step.event) = .ok s ∧ AllSatisfied 2 h ∧ (∀ e ∈ h, ∀ o ∈ e.txns, o.SameCode ∧ o.ChangeFits) ∧
    spentPositions h = [0, 1, 0, 1] ∧ ∀ c, valueOf c (neverSpent h) = 2 * issued c (h.map Step.event) := by
  obtain ⟨pk, vk, keys⟩ := keys22
  exact C58_alias_false Toy.complete Toy.batch (d := 2) (by decide) keys (k := alice) (by decide +kernel) (by decide +kernel)
    (by decide +kernel) (by decide +kernel) (by decide +kernel) (by decide +kernel) (by decide +kernel) (by decide +kernel)
    (by decide +kernel) (by decide +kernel) (by decide +kernel) (by decide +kernel) (by decide +kernel) _ _ _ _ _ _

/-- a worthless record becomes native coins in the toy instantiation -/
example : ∃ (o : Opening) (s : LedgerState) (h : List Step),
    h = [.grant feeRec, .grant { assetRec with asset_def := ⟨asset.code, AssetPolicy.default⟩ },
      .block [o] 47 bob.pubKey 700] ∧
    run 2 (h.map Step.event) = .ok s ∧ AllSatisfied 2 h ∧
    (∀ e ∈ h, ∀ o ∈ e.txns, o.ChangeFits ∧ ∀ x ∈ o.spends, x.sk.val < E.r) ∧ spentPositions h = [0, 1] ∧
    valueOf nativeCode (neverSpent h) = issued nativeCode (h.map Step.event) + 50 := by
  obtain ⟨pk, vk, keys⟩ := keys22
  obtain ⟨o, s, h, h1, h2, h3, h4, h5, h6, -⟩ := C58_code_false Toy.complete Toy.batch (d := 2) (by decide) keys
    (fee_ro := feeRec) (ro := { assetRec with asset_def := ⟨asset.code, AssetPolicy.default⟩ }) (k0 := alice) (k1 := alice)
    (by decide +kernel) (by decide +kernel) (by decide +kernel) (by decide +kernel) (by decide +kernel) (by decide +kernel)
    (by decide +kernel) (by decide +kernel) (by decide +kernel) (by decide +kernel) (by decide +kernel) (c := nativeCode)
    (by decide +kernel) 47 bob.pubKey 700
  exact ⟨o, s, h, h1, h2, h3, h4, h5, h6⟩

end Cap.Examples
