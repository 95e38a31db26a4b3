/-
C87: Whatever can be issued can be paid with
status: partial
note: False of the code for policies with a freezer and no viewer (C87_locked_false): the policy can be put together and declared with the API, and units of it are minted and accepted, but every one of the three ways of making a transfer fails as soon as such a record is among the inputs or outputs, for all randomness, keys and times. C87_exact: of the transfers that meet all other conditions, exactly those whose policy names a viewer along with a freezer are generated. C87_elsewhere_partial: the restriction is the library's alone: the same transfers satisfy the circuit, and made by another program they are accepted by every validator. C87_frozen_partial: the freezer can freeze and release such units all the same. C87_far_false: a policy with a viewer and a threshold of 2^128 - 1 can be declared and minted under, but a transfer of less than 2^127 such units is only made if the empty memo happens to decrypt to the message for the viewer. C87_usable_partial: for all other policies made with the API, amounts below 2^127, and, if there is a viewer, a threshold that exceeds the amount by less than 2^127: once minted on the reference ledger, the units can be paid on, after any later history in which their nullifier was not published, whatever the reveal bits say. Assumed: completeness and batch correctness of the SNARK; valid_until below 2^20 and credentials that are not valid for too long (C55_false).
-/
import Verif.Props.C76
import Verif.Props.C32
import Verif.Props.C33

namespace Cap

open Spec

variable [E : CapEnv] [S : CapExt]

/-- **Units that nobody can pay with.**  For every seed and description whose code is not reserved: a policy that names a
freezer is put together and declared with the API; units of it are minted for anybody, and the mint is accepted; but no
call that makes a transfer succeeds once a record of this asset is among its inputs or outputs. -/
theorem C87_locked_false (complete : SnarkComplete) (seed : F) (desc : List Byte)
    (code : newDomestic seed desc ≠ nativeCode ∧ newDomestic seed desc ≠ dummyCode) :
    ∃ policy ad, runPolicy [.setFreezer E.gen] AssetPolicy.default = .ok policy ∧
      AssetDefinition.new (newDomestic seed desc) policy = .ok ad ∧
      (∀ {d : Fin 256} {pk : MintProvingKey} {vk : MintVerifyingKey}, mintPreprocess d = .ok (pk, vk) →
        ∀ {root : F} {fi : FeeInput} {fee : Amount}, PaysFee d.val root fi fee →
        ∀ (amount : Amount), amount.val < 2 ^ 127 → ∀ (owner : UserPubKey) (blind chg_blind : F) (rng : TransferRand),
        ∃ info chg n sk, TxnFeeInfo.new chg_blind fi fee = .ok (info, chg) ∧
          MintNote.generate rng ⟨amount, ad, owner, .unfrozen, blind⟩ seed desc info pk = .ok (n, sk) ∧
          n.verify vk root = .ok () ∧ n.mint_comm = RecordOpening.commitment ⟨amount, ad, owner, .unfrozen, blind⟩) ∧
      (∀ b rng inputs outputs pk valid_until extra, (∃ r ∈ inputs.map (·.ro) ++ outputs, r.asset_def = ad) →
        ∀ res, TransferNote.generate b rng inputs outputs pk valid_until extra ≠ .ok res) ∧
      (∀ b rng inputs outputs info valid_until pk extra, (∃ r ∈ inputs.map (·.ro) ++ outputs, r.asset_def = ad) →
        ∀ res, TransferNote.generateNonNative b rng inputs outputs info valid_until pk extra ≠ .ok res) ∧
      (∀ b chg_blind rng inputs outputs fee valid_until pk, (∃ r ∈ inputs.map (·.ro) ++ outputs, r.asset_def = ad) →
        ∀ res, TransferNote.generateNative b chg_blind rng inputs outputs fee valid_until pk ≠ .ok res) := by
  have hgen : ∀ b rng inputs outputs pk valid_until extra,
      (∃ r ∈ inputs.map (·.ro) ++ outputs, r.asset_def = ⟨newDomestic seed desc,
        { AssetPolicy.default with freezer_pk := E.gen }⟩) →
      ∀ res, TransferNote.generate b rng inputs outputs pk valid_until extra ≠ .ok res := by
    rintro b rng inputs outputs pk valid_until extra ⟨r, hr, had⟩ ⟨n, sk⟩ gen
    obtain ⟨w, pub, h⟩ := TransferNote.generate_ok.1 gen
    obtain ⟨ad, ok⟩ := transferCheckAssetDef_ok.1 h.asset
    refine ok.freezer r hr ?_ ?_
    · rw [had]; exact gen_ne_zero
    · rw [had]; rfl
  have hdecl : AssetDefinition.new (newDomestic seed desc) { AssetPolicy.default with freezer_pk := E.gen } =
      .ok ⟨newDomestic seed desc, { AssetPolicy.default with freezer_pk := E.gen }⟩ :=
    (C33_new _ _ _).1.2 ⟨code, rfl, rfl⟩
  refine ⟨{ AssetPolicy.default with freezer_pk := E.gen },
    ⟨newDomestic seed desc, { AssetPolicy.default with freezer_pk := E.gen }⟩, rfl, hdecl, ?_, hgen, ?_, ?_⟩
  · intro d pk vk keys root fi fee pays amount small owner blind chg_blind rng
    obtain ⟨info, chg, n, sk, h1, h2, h3, -, h5, -⟩ := C53_partial complete keys pays
      (C53_declared hdecl amount owner blind).1 small chg_blind rng
    exact ⟨info, chg, n, sk, h1, h2, h3, h5⟩
  · rintro b rng inputs outputs info valid_until pk extra ⟨r, hr, had⟩ res gen
    unfold TransferNote.generateNonNative at gen
    rw [bind_ok_iff] at gen
    obtain ⟨-, -, gen⟩ := gen
    refine hgen _ _ _ _ _ _ _ ⟨r, ?_, had⟩ _ gen
    rw [List.mem_append] at hr ⊢
    exact hr.imp (fun h => List.mem_cons_of_mem _ h) (fun h => List.mem_cons_of_mem _ h)
  · rintro b chg_blind rng inputs outputs fee valid_until pk ⟨r, hr, had⟩ res gen
    unfold TransferNote.generateNative at gen
    split at gen
    · cases gen
    · simp only [bind_ok_iff] at gen
      obtain ⟨_, _, _, _, _, _, _, _, _, _, x, gen, _⟩ := gen
      refine hgen _ _ _ _ _ _ _ ⟨r, ?_, had⟩ _ gen
      rw [List.mem_append] at hr ⊢
      exact hr.imp id (fun h => List.mem_cons_of_mem _ h)

/-- **Units that are in effect locked by a high threshold.**  A policy with a viewer and the highest threshold is put together
with the API.  Whatever is declared under it can be minted for anybody, and the mint is accepted.  But a transfer
of less than 2^127 such units is only made if the memo that discloses nothing happens to decrypt to the whole message for the viewer; for given randomness and
numbers of inputs and outputs this is so for one asset code at most. -/
theorem C87_far_false (complete : SnarkComplete) :
    ∃ policy, runPolicy [.setViewer E.gen, .setThreshold (Fin.ofNat (2 ^ 128) (2 ^ 128 - 1))] AssetPolicy.default = .ok policy ∧
      (∀ (seed : F) (desc : List Byte), newDomestic seed desc ≠ nativeCode ∧ newDomestic seed desc ≠ dummyCode →
        AssetDefinition.new (newDomestic seed desc) policy = .ok ⟨newDomestic seed desc, policy⟩ ∧
        ∀ {d : Fin 256} {pk : MintProvingKey} {vk : MintVerifyingKey}, mintPreprocess d = .ok (pk, vk) →
          ∀ {root : F} {fi : FeeInput} {fee : Amount}, PaysFee d.val root fi fee →
          ∀ (amount : Amount), amount.val < 2 ^ 127 → ∀ (owner : UserPubKey) (blind chg_blind : F) (rng : TransferRand),
          ∃ info chg n sk, TxnFeeInfo.new chg_blind fi fee = .ok (info, chg) ∧
            MintNote.generate rng ⟨amount, ⟨newDomestic seed desc, policy⟩, owner, .unfrozen, blind⟩ seed desc info pk =
              .ok (n, sk) ∧ n.verify vk root = .ok ()) ∧
      (∀ {b rng inputs outputs pk valid_until extra res} {code : AssetCode},
        TransferNote.generate b rng inputs outputs pk valid_until extra = .ok res → Moves ⟨code, policy⟩ inputs →
        moved inputs < 2 ^ 127 → ∃ w, TransferWitness.newUnchecked rng.enc_rand inputs outputs = .ok w ∧
          ViewerKeyPair.decrypt ⟨1⟩ (emptyMemo rng.enc_rand inputs.length outputs.length) = transferMsgV w.toV) ∧
      ∀ {b b' : Build} {rng rng' : TransferRand} {inputs inputs' : List TransferNoteInput}
        {outputs outputs' : List RecordOpening} {pk pk' : TransferProvingKey} {t t' : U64} {extra extra' : List Byte}
        {code code' : AssetCode}, code ≠ code' → Moves ⟨code, policy⟩ inputs → Moves ⟨code', policy⟩ inputs' →
        moved inputs < 2 ^ 127 → moved inputs' < 2 ^ 127 → inputs.length = inputs'.length → outputs.length = outputs'.length → rng.enc_rand = rng'.enc_rand →
        (∀ res, TransferNote.generate b rng inputs outputs pk t extra ≠ .ok res) ∨
        (∀ res, TransferNote.generate b' rng' inputs' outputs' pk' t' extra' ≠ .ok res) := by
  have hpk : (E.gen : Pt) = ViewerKeyPair.pubKey ⟨1⟩ := by
    exact (smulFr_one E.gen).symm
  have hne : ViewerKeyPair.pubKey (⟨1⟩ : ViewerKeyPair) ≠ 0 := by rw [← hpk]; exact gen_ne_zero
  have hfar : ∀ {m : ℕ}, m < 2 ^ 127 → m + 2 ^ 127 ≤ (Fin.ofNat (2 ^ 128) (2 ^ 128 - 1)).val := by
    intro m hm
    have : (Fin.ofNat (2 ^ 128) (2 ^ 128 - 1)).val = 2 ^ 128 - 1 := by decide +kernel
    omega
  refine ⟨{ AssetPolicy.default with viewer_pk := E.gen, reveal_threshold := Fin.ofNat (2 ^ 128) (2 ^ 128 - 1) }, rfl,
    ?_, ?_, ?_⟩
  · intro seed desc code
    have hdecl := (C33_new (newDomestic seed desc) { AssetPolicy.default with
      viewer_pk := E.gen, reveal_threshold := Fin.ofNat (2 ^ 128) (2 ^ 128 - 1) } ⟨_, _⟩).1.2 ⟨code, rfl, rfl⟩
    refine ⟨hdecl, ?_⟩
    intro d pk vk keys root fi fee pays amount small owner blind chg_blind rng
    obtain ⟨info, chg, n, sk, h1, h2, h3, -⟩ := C53_partial complete keys pays
      (C53_declared hdecl amount owner blind).1 small chg_blind rng
    exact ⟨info, chg, n, sk, h1, h2, h3⟩
  · rintro b rng inputs outputs pk valid_until extra ⟨n, sk⟩ code gen hm small
    exact C16_false gen hm hpk hne (hfar small)
  · intro b b' rng rng' inputs inputs' outputs outputs' pk pk' t t' extra extra' code code' hc hm hm' small small' h1 h2 h3
    exact C16_refused hm hm' hpk hpk hne (hfar small) (hfar small') h1 h2 h3 hc

section
variable {ni no : ℕ} {d : Fin 256} {valid_until : U64} {inputs : List TransferNoteInput} {outputs : List RecordOpening}
  {ad : AssetDefinition} {fee : Amount} {root : F}

/-- **Exactly these.**  Of the transfers that meet all other conditions, those are generated whose policy names a viewer if
it names a freezer. -/
theorem C87_exact (complete : SnarkComplete) {pk : TransferProvingKey} {vk : TransferVerifyingKey}
    (keys : transferPreprocess ni no d = .ok (pk, vk))
    (transferable : Transferable ni no d.val valid_until inputs outputs ad fee root)
    (limits : Limits valid_until inputs ad) (b : Build) (rng : TransferRand) (extra : List Byte) :
    (∃ res, TransferNote.generate b rng inputs outputs pk valid_until extra = .ok res) ↔
      (ad.policy.freezer_pk ≠ 0 → ad.policy.viewer_pk ≠ 0) := by
  constructor
  · rintro ⟨⟨n, sk⟩, gen⟩ hf
    obtain ⟨w, pub, h⟩ := TransferNote.generate_ok.1 gen
    obtain ⟨ad', ok⟩ := transferCheckAssetDef_ok.1 h.asset
    by_cases hd : ∀ i ∈ inputs.tail, i.ro.asset_def = AssetDefinition.dummy
    · rw [transferable.only_dummies hd] at hf
      exact absurd rfl hf
    · push Not at hd
      obtain ⟨i, hi, hi'⟩ := hd
      have := (transferable.asset_in i hi).resolve_left hi'
      have hm : i.ro ∈ inputs.map (·.ro) ++ outputs :=
        List.mem_append_left _ (List.mem_map_of_mem (f := (·.ro)) (List.mem_of_mem_tail hi))
      have := ok.freezer _ hm
      rw [(transferable.asset_in i hi).resolve_left hi'] at this
      exact this hf
  · intro hv
    obtain ⟨n, sk, w, pub, h, -, -⟩ := Spec.WellFormed.generates (d := d) ⟨transferable, hv⟩ limits complete keys b rng extra
    exact ⟨(n, sk), TransferNote.generate_ok.2 ⟨w, pub, h⟩⟩

/-- **Made elsewhere, accepted everywhere.**  Whatever the policy says about freezers and viewers, a transfer that meets
the other conditions has a note that spends these inputs and creates these outputs, and that every validator accepts. -/
theorem C87_elsewhere_partial (complete : SnarkComplete) {pk : TransferProvingKey} {vk : TransferVerifyingKey}
    (keys : transferPreprocess ni no d = .ok (pk, vk))
    (transferable : Transferable ni no d.val valid_until inputs outputs ad fee root)
    (limits : Limits valid_until inputs ad) (memo_key : Pt) (extra : List Byte) :
    ∃ n : TransferNote, n.inputs_nullifiers = inputs.map nullifierOf ∧
      n.output_commitments = outputs.map RecordOpening.commitment ∧ n.aux_info = ⟨root, fee, valid_until, memo_key, extra⟩ ∧
      (∃ w, OpensTransfer ni no d.val n w) ∧ ∀ t ≤ valid_until, n.verify vk root t = .ok () := by
  obtain ⟨hk, hk1, hk2, hk3⟩ := transferPreprocess_ok keys
  obtain ⟨w, pub, hw, hp, hfee, had, hss⟩ := transferable.witness limits 0
  have hsat := transferable.sat limits hw hp hfee hss
  have hshape := transferable.shape hw hp hss hsat
  obtain ⟨s0, ss, o0, os, hf⟩ := fromWitness_ok.1 hp
  obtain ⟨π, -, hv⟩ := complete _ _ _ hk (.transfer w.toV pub.toV) hshape hsat (E.verKeyBytes memo_key ++ extra) 0
  have hpub : (⟨pub.input_nullifiers, pub.output_commitments, π, pub.viewing_memo,
      ⟨root, fee, valid_until, memo_key, extra⟩⟩ : TransferNote).pub = pub := by
    obtain ⟨i0, is, hi, hi0⟩ := transferable.fee_in
    obtain ⟨o0', os', ho, ho0⟩ := transferable.fee_out
    obtain ⟨-, k2, -, k4⟩ := newUnchecked_ok.1 hw
    have e1 : pub.merkle_root = root := by
      rw [hi, hf.secrets, List.forall₂_cons] at k4
      rw [hf.root, (inputSecretOf_ok.1 k4.1).2.2.1]
      exact (transferable.member i0 (by rw [hi]; simp) (by rw [hi0]; exact nativeDef_ne_dummyDef)).1
    have e2 : pub.native_asset_code = nativeCode := by
      have : o0 :: os = o0' :: os' := by rw [← hf.outputs, k2, ho]
      rw [hf.native, (List.cons.inj this).1, ho0]
      rfl
    unfold TransferNote.pub
    rw [← hfee, ← hf.valid, ← e1, ← e2]
  refine ⟨⟨pub.input_nullifiers, pub.output_commitments, π, pub.viewing_memo,
    ⟨root, fee, valid_until, memo_key, extra⟩⟩, transferable.nullifiers hw hp, ?_, rfl, ⟨w.toV, ?_, ?_⟩, ?_⟩
  · show pub.output_commitments = _
    rw [hf.commitments, (newUnchecked_ok.1 hw).2.1]
  · rw [hpub]; exact hshape
  · rw [hpub]; exact hsat
  · intro t ht
    refine TransferNote.verify_ok.2 ⟨rfl, ht, ?_⟩
    rw [hpub]
    exact hv

end

/-! ### On the ledger -/

omit S in
/-- policies made with the API stay within what the circuit can handle -/
theorem policy_limits {ops : List PolicyOp} {policy : AssetPolicy} (built : runPolicy ops AssetPolicy.default = .ok policy)
    {valid_until : U64} {inputs : List TransferNoteInput}
    (threshold : policy.viewer_pk ≠ 0 → policy.reveal_threshold.val < moved inputs + 2 ^ 127)
    {ad : AssetDefinition} (policy_eq : ad.policy = policy) (window : valid_until.val < 2 ^ 20)
    (fresh : ∀ i ∈ inputs, i.ro.asset_def.policy.cred_pk ≠ 0 → ∀ c, i.cred = some c →
      c.expiry.val < valid_until.val + 2 ^ 20) : Limits valid_until inputs ad := by
  subst policy_eq
  refine ⟨window, fresh, or_iff_not_imp_left.2 (fun hv => ?_)⟩
  have threshold := threshold hv
  rcases Nat.lt_or_ge ad.policy.reveal_threshold.val (moved inputs) with hm | hm
  · exact Or.inr ⟨hm, Or.inl (C32_history_address ops _ built)⟩
  · exact Or.inl ⟨hm, by omega⟩

theorem runFrom_two {d : Fin 256} {a b : List Event} {s s2 : LedgerState} :
    runFrom d s (a ++ b) = .ok s2 ↔ ∃ s1, runFrom d s a = .ok s1 ∧ runFrom d s1 b = .ok s2 := by
  induction b using List.reverseRecOn generalizing s2 with
  | nil => simp [runFrom]
  | append_singleton b e ih =>
    rw [← List.append_assoc, runFrom_append]
    simp only [ih, runFrom_append]
    exact ⟨fun ⟨x, ⟨y, h1, h2⟩, h3⟩ => ⟨y, h1, x, h2, h3⟩, fun ⟨y, h1, x, h2, h3⟩ => ⟨x, ⟨y, h1, h2⟩, h3⟩⟩

section
variable {d : Fin 256} {h : List Event} {s : LedgerState}

omit S in
/-- the position after the change record -/
theorem next_position (space : Room d.val s 3) : (Fin.ofNat (2 ^ 64) (s.leaves.length + 1)).val = s.leaves.length + 1 := by
  have := space.2
  show (s.leaves.length + 1) % 2 ^ 64 = _
  exact Nat.mod_eq_of_lt (by omega)

/-- a mint puts the new record behind the change -/
theorem minted_there (complete : SnarkComplete) (batch : SnarkBatch) (ran : run d h = .ok s)
    {fee_coin : Coin} (ready : Ready s fee_coin) (native : fee_coin.ro.asset_def = AssetDefinition.native)
    {fee : Amount} (covers : fee.val ≤ fee_coin.ro.amount.val) {seed : F} {desc : List Byte} {ro : RecordOpening}
    (mintable : Mintable seed desc ro) (small : ro.amount.val < 2 ^ 127)
    {pk : MintProvingKey} {vk : MintVerifyingKey} (keys : mintPreprocess d = .ok (pk, vk))
    (space : Room d.val s 3) (time : U64) (chg_blind : F) (rng : TransferRand) (block_blind : F) (who : UserPubKey) :
    ∃ info chg n sk, TxnFeeInfo.new chg_blind (fee_coin.feeInput d.val s) fee = .ok (info, chg) ∧
      MintNote.generate rng ro seed desc info pk = .ok (n, sk) ∧
      ∃ e s1, e = .block [⟨.mint n, [(fee_coin.ro, lookup d.val s fee_coin.uid)], [chg, ro]⟩] block_blind who time ∧
        run d (h ++ [e]) = .ok s1 ∧ s1.leaves[s.leaves.length + 1]? = some ro.commitment := by
  obtain ⟨info, chg, n, sk, new, gen, -, e, s1, rfl, ran1⟩ := C76_mint_partial complete batch ran ready native covers
    mintable small keys (time := time) space chg_blind rng block_blind who
  refine ⟨info, chg, n, sk, new, gen, _, s1, rfl, ran1, ?_⟩
  obtain ⟨s', h1, h2⟩ := runFrom_append.1 ran1
  cases ran.symm.trans h1
  obtain ⟨-, -, h3⟩ := bind_ok_iff.1 h2
  obtain ⟨_, -, hl, -⟩ := LedgerState.insertBlock_ok h3
  rw [hl, ← (C18_fields gen).2.2.1]
  show (s.leaves ++ [n.chg_comm, n.mint_comm] ++ _)[s.leaves.length + 1]? = _
  simp

/-- **Minted, and paid on.**  In every reachable state of the ledger, units of an asset declared with the API can be minted
for anybody, and the new record is at a known position of the tree; and in every later state in which its nullifier is
unpublished, its owner can pay it on, with any native coin for the fee. -/
theorem C87_usable_partial (complete : SnarkComplete) (batch : SnarkBatch) (ran : run d h = .ok s)
    -- the policy and the asset
    {ops : List PolicyOp} {policy : AssetPolicy} (built : runPolicy ops AssetPolicy.default = .ok policy)
    (freezer_has_viewer : policy.freezer_pk ≠ 0 → policy.viewer_pk ≠ 0)
    {seed : F} {desc : List Byte} {ad : AssetDefinition}
    (declared : AssetDefinition.new (newDomestic seed desc) policy = .ok ad)
    -- the mint
    {fee_coin : Coin} (ready : Ready s fee_coin) (native : fee_coin.ro.asset_def = AssetDefinition.native)
    {fee : Amount} (covers : fee.val ≤ fee_coin.ro.amount.val) {amount : Amount} (small : amount.val < 2 ^ 127)
    (threshold : policy.viewer_pk ≠ 0 → policy.reveal_threshold.val < amount.val + 2 ^ 127)
    {pk : MintProvingKey} {vk : MintVerifyingKey} (keys : mintPreprocess d = .ok (pk, vk)) (space : Room d.val s 3)
    (time : U64) (chg_blind : F) (rng : TransferRand) (block_blind : F) (who : UserPubKey)
    (key : UserKeyPair) (blind : F) (cred : Option ExpirableCredential) {coin : Coin}
    (coin_eq : coin = ⟨⟨amount, ad, key.pubKey, .unfrozen, blind⟩, Fin.ofNat (2 ^ 64) (s.leaves.length + 1), key, cred⟩) :
    ∃ info chg n sk, TxnFeeInfo.new chg_blind (fee_coin.feeInput d.val s) fee = .ok (info, chg) ∧
      MintNote.generate rng coin.ro seed desc info pk = .ok (n, sk) ∧
      ∃ e s1, e = .block [⟨.mint n, [(fee_coin.ro, lookup d.val s fee_coin.uid)], [chg, coin.ro]⟩] block_blind who time ∧
        run d (h ++ [e]) = .ok s1 ∧ s1.leaves[s.leaves.length + 1]? = some coin.ro.commitment ∧
        ∀ {later : List Event} {s2 : LedgerState}, run d (h ++ [e] ++ later) = .ok s2 → coin.nullifier ∉ s2.nullifiers →
        ∀ {fee_coin2 : Coin}, Ready s2 fee_coin2 → fee_coin2.ro.asset_def = AssetDefinition.native →
          fee_coin2.nullifier ≠ coin.nullifier → fee_coin2.ro.amount.val + amount.val < 2 ^ 127 →
        ∀ {outputs : List RecordOpening} {fee2 : Amount}, (∀ o ∈ outputs, o.asset_def = ad ∧ o.freeze_flag = .unfrozen) →
          total outputs = amount.val → fee2.val ≤ fee_coin2.ro.amount.val →
        ∀ {pk2 : TransferProvingKey} {vk2 : TransferVerifyingKey},
          transferPreprocess 2 (outputs.length + 1) d = .ok (pk2, vk2) →
        ∀ {valid_until time2 : U64}, time2 ≤ valid_until → valid_until.val < 2 ^ 20 →
          (policy.cred_pk ≠ 0 → ∃ cr, cred = some cr ∧ cr.verify valid_until = .ok () ∧ cr.attrs.length = 8 ∧
            cr.expiry.val < valid_until.val + 2 ^ 20) →
        Room d.val s2 (outputs.length + 2) →
        ∀ (b : Build) (chg_blind2 : F) (rng2 : TransferRand) (extra : List Byte) (block_blind2 : F) (who2 : UserPubKey),
        ∃ info2 chg2 n2 sk2, TxnFeeInfo.new chg_blind2 (fee_coin2.feeInput d.val s2) fee2 = .ok (info2, chg2) ∧
          TransferNote.generateNonNative b rng2 [coin.input d.val s2] outputs info2 valid_until pk2 extra = .ok (n2, sk2) ∧
          ∃ e2 s3, e2 = .block [⟨.transfer n2, [fee_coin2, coin].map (fun c => (c.ro, lookup d.val s2 c.uid)),
              chg2 :: outputs⟩] block_blind2 who2 time2 ∧
            run d (h ++ [e] ++ later ++ [e2]) = .ok s3 := by
  obtain ⟨mintable, hpol⟩ := C53_declared declared amount key.pubKey blind
  have hcode := ((C33_new _ _ _).1.1 declared)
  have hro : coin.ro = ⟨amount, ad, key.pubKey, .unfrozen, blind⟩ := by rw [coin_eq]
  have hkey : coin.key = key := by rw [coin_eq]
  have hcred : coin.cred = cred := by rw [coin_eq]
  have huid : coin.uid.val = s.leaves.length + 1 := by rw [coin_eq]; exact next_position space
  rw [← hro] at mintable
  obtain ⟨info, chg, n, sk, new, gen, e, s1, rfl, ran1, there⟩ := minted_there complete batch ran ready native covers
    mintable (by rw [hro]; exact small) keys space time chg_blind rng block_blind who
  refine ⟨info, chg, n, sk, new, gen, _, s1, rfl, ran1, there, ?_⟩
  intro later s2 ran2 fresh fee_coin2 ready2 native2 hne small2 outputs fee2 outs balanced covers2 pk2 vk2 keys2 valid_until time2
    timely window creds space2 b chg_blind2 rng2 extra block_blind2 who2
  obtain ⟨s1', h1, h2⟩ := runFrom_two.1 ran2
  cases ran1.symm.trans h1
  have hready : Ready s2 coin := by
    refine ⟨?_, ?_, ?_, fresh⟩
    · rw [huid]; exact leaves_stay h2 there
    · rw [hro, hkey]
    · rw [hro]
  have had : coin.ro.asset_def = ad := by rw [hro]
  have hmoved : moved ((fee_coin2.feeInput d.val s2).toTransferInput :: [coin].map (Coin.input d.val s2)) = amount.val := by
    have hnd : coin.ro.asset_def ≠ AssetDefinition.dummy := by
      rw [had]
      intro h
      exact hcode.1.2 (by rw [← hcode.2.1, h]; rfl)
    show total ([coin.ro].filter (fun r => r.asset_def ≠ AssetDefinition.dummy)) = _
    rw [List.filter_cons_of_pos (by simpa using hnd), hro]
    simp [total]
  obtain ⟨info2, chg2, n2, sk2, k1, k2, -, e2, s3, k3, k4⟩ := C76_asset_partial complete batch ran2 (ad := ad)
    ⟨by rw [hcode.2.1]; exact hcode.1.1, by rw [hcode.2.1]; exact hcode.1.2⟩ (by rw [hpol]; exact freezer_has_viewer)
    (fee_coin := fee_coin2) (coins := [coin]) (by simp)
    (by simpa using ⟨ready2, hready⟩) native2 (by simpa using had) (by simpa using hne) outs
    (by rw [balanced]; simp [total, hro]) covers2 (by simpa [total, hro] using small2) keys2
    (valid_until := valid_until) (time := time2)
    (by
      rw [hpol]
      intro hc c hm
      obtain ⟨cr, c1, c2, c3, -⟩ := creds hc
      exact ⟨cr, by rw [List.mem_singleton.1 hm, hcred, c1], c2, c3⟩)
    (policy_limits built (by rw [hmoved]; exact threshold) hpol window (by
      intro i hi hc c hcr
      rcases List.mem_cons.1 hi with rfl | hi
      · have : fee_coin2.ro.asset_def.policy.cred_pk ≠ 0 := hc
        rw [native2] at this
        exact absurd rfl this
      · have := List.mem_singleton.1 hi
        subst this
        have hc' : coin.ro.asset_def.policy.cred_pk ≠ 0 := hc
        rw [had, hpol] at hc'
        obtain ⟨cr, c1, -, -, c4⟩ := creds hc'
        have : coin.cred = some c := hcr
        rw [hcred, c1] at this
        cases this
        exact c4))
    timely space2 b chg_blind2 rng2 extra block_blind2 who2
  exact ⟨info2, chg2, n2, sk2, k1, k2, e2, s3, k3, k4⟩

/-- **The freezer can act.**  Whatever else the policy says, and so also for units that nobody can pay with: units of an
asset declared with the API can be minted for anybody, and in every later state in which the freezer's nullifier for the
new record is unpublished, the freezer can freeze it. -/
theorem C87_frozen_partial (complete : SnarkComplete) (batch : SnarkBatch) (ran : run d h = .ok s)
    -- the policy and the asset
    {policy : AssetPolicy} {seed : F} {desc : List Byte} {ad : AssetDefinition}
    (declared : AssetDefinition.new (newDomestic seed desc) policy = .ok ad) {freezer : FreezerKeyPair}
    (named : policy.freezer_pk ≠ 0) (key_of : policy.freezer_pk = smulFr freezer.sec_key E.gen)
    -- the mint
    {fee_coin : Coin} (ready : Ready s fee_coin) (native : fee_coin.ro.asset_def = AssetDefinition.native)
    {fee : Amount} (covers : fee.val ≤ fee_coin.ro.amount.val) {amount : Amount} (small : amount.val < 2 ^ 127)
    {pk : MintProvingKey} {vk : MintVerifyingKey} (keys : mintPreprocess d = .ok (pk, vk)) (space : Room d.val s 3)
    (time : U64) (chg_blind : F) (rng : TransferRand) (block_blind : F) (who : UserPubKey)
    {owner : UserPubKey} (somebody : owner.address ≠ 0) (blind : F) {record : Freezable}
    (record_eq : record = ⟨⟨amount, ad, owner, .unfrozen, blind⟩, Fin.ofNat (2 ^ 64) (s.leaves.length + 1), freezer⟩) :
    ∃ info chg n sk, TxnFeeInfo.new chg_blind (fee_coin.feeInput d.val s) fee = .ok (info, chg) ∧
      MintNote.generate rng record.ro seed desc info pk = .ok (n, sk) ∧
      ∃ e s1, e = .block [⟨.mint n, [(fee_coin.ro, lookup d.val s fee_coin.uid)], [chg, record.ro]⟩] block_blind who time ∧
        run d (h ++ [e]) = .ok s1 ∧
        ∀ {later : List Event} {s2 : LedgerState}, run d (h ++ [e] ++ later) = .ok s2 → record.nullifier ∉ s2.nullifiers →
        ∀ {fee_coin2 : Coin}, Ready s2 fee_coin2 → fee_coin2.ro.asset_def = AssetDefinition.native →
          fee_coin2.nullifier ≠ record.nullifier →
        ∀ {fee2 : Amount}, fee2.val ≤ fee_coin2.ro.amount.val →
        ∀ {pk2 : FreezeProvingKey} {vk2 : FreezeVerifyingKey}, freezePreprocess 2 d = .ok (pk2, vk2) →
        Room d.val s2 3 →
        ∀ (time2 : U64) (chg_blind2 : F) (rng2 : FreezeRand) (block_blind2 : F) (who2 : UserPubKey),
        ∃ info2 chg2 n2 sk2 outs, TxnFeeInfo.new chg_blind2 (fee_coin2.feeInput d.val s2) fee2 = .ok (info2, chg2) ∧
          FreezeNote.generate rng2 [record.input d.val s2] info2 pk2 = .ok (n2, sk2, outs) ∧
          outs = [{ record.ro with freeze_flag := .frozen, blind := rng2.blinds 0 }] ∧
          ∃ e2 s3, e2 = .block [⟨.freeze n2, [(fee_coin2.ro, lookup d.val s2 fee_coin2.uid),
              (record.ro, lookup d.val s2 record.uid)], chg2 :: outs⟩] block_blind2 who2 time2 ∧
            run d (h ++ [e] ++ later ++ [e2]) = .ok s3 := by
  obtain ⟨mintable, hpol⟩ := C53_declared declared amount owner blind
  have hro : record.ro = ⟨amount, ad, owner, .unfrozen, blind⟩ := by rw [record_eq]
  have hkey : record.key = freezer := by rw [record_eq]
  have huid : record.uid.val = s.leaves.length + 1 := by rw [record_eq]; exact next_position space
  rw [← hro] at mintable
  obtain ⟨info, chg, n, sk, new, gen, e, s1, rfl, ran1, there⟩ := minted_there complete batch ran ready native covers
    mintable (by rw [hro]; exact small) keys space time chg_blind rng block_blind who
  refine ⟨info, chg, n, sk, new, gen, _, s1, rfl, ran1, ?_⟩
  intro later s2 ran2 fresh fee_coin2 ready2 native2 hne fee2 covers2 pk2 vk2 keys2 space2 time2 chg_blind2 rng2 block_blind2
    who2
  obtain ⟨s1', h1, h2⟩ := runFrom_two.1 ran2
  cases ran1.symm.trans h1
  have had : record.ro.asset_def.policy = policy := by rw [hro]; exact hpol
  have hready : ReadyToFreeze s2 record := by
    refine ⟨?_, ?_, ?_, fresh⟩
    · rw [huid]; exact leaves_stay h2 there
    · rw [had]; exact named
    · rw [had, hkey]; exact key_of
  obtain ⟨info2, chg2, n2, sk2, outs, k1, k2, -, k3, -, e2, s3, k4, k5⟩ := C76_freeze_partial complete batch ran2
    (fee_coin := fee_coin2) ready2 native2 (records := [record]) (by simp) (by simpa using hready)
    (by simpa [hro] using somebody) (by simpa using hne) covers2 keys2 (time := time2) space2 chg_blind2 rng2 block_blind2 who2
  refine ⟨info2, chg2, n2, sk2, outs, k1, k2, ?_, e2, s3, k4, k5⟩
  rw [k3]
  simp only [List.mapIdx_cons, List.mapIdx_nil, hro]
  rfl

end

end Cap

/-! Non-vacuity -/

namespace Cap.Examples
open Toy Spec

/-- the code of the example asset is not reserved, and the fee of its mint can be paid -/
example : SnarkComplete ∧ (newDomestic seed desc ≠ nativeCode ∧ newDomestic seed desc ≠ dummyCode) ∧
    mintPreprocess 1 = .ok (mintPk, mintVk) ∧ PaysFee (1 : Fin 256).val root ⟨feeRec, acc0, alice⟩ 7 :=
  ⟨complete, by decide +kernel, mintKeys_eq, toyPays⟩

/-! An asset with a freezer and no viewer, in a tree with a native record of Alice's. -/

/-- the asset -/
def asset87 : AssetDefinition := ⟨newDomestic seed desc, { AssetPolicy.default with freezer_pk := freezer.pub_key }⟩
/-- Alice's record of it -/
def rec87 : RecordOpening := ⟨50, asset87, alice.pubKey, .unfrozen, 32⟩
/-- the leaves of the tree -/
def tree87 : List (ZMod p) := [feeRec.commitment, rec87.commitment]
/-- the inputs -/
def in87 : List TransferNoteInput :=
  [⟨feeRec, ⟨treePath 1 tree87 0, treeRoot 1 tree87, 0⟩, alice, none⟩,
   ⟨rec87, ⟨treePath 1 tree87 1, treeRoot 1 tree87, 1⟩, alice, none⟩]
/-- Bob gets everything -/
def out87 : List RecordOpening := [chgRec, { rec87 with pub_key := bob.pubKey }]

theorem transferable87 : Transferable 2 2 1 900 in87 out87 asset87 7 (treeRoot 1 tree87) where
  num_in := rfl
  num_out := rfl
  depth := by decide +kernel
  fee_in := ⟨_, _, rfl, rfl⟩
  fee_out := ⟨_, _, rfl, rfl⟩
  asset_in := by decide +kernel
  asset_out := by decide +kernel
  only_dummies := fun h => absurd (h in87[1] (by simp [in87])) (by decide +kernel)
  code_dummy := by decide +kernel
  code_native := by decide +kernel
  owned := by decide +kernel
  unfrozen_in := by decide +kernel
  unfrozen_out := by decide +kernel
  member := by decide +kernel
  dummies := by decide +kernel
  once := by decide +kernel
  balanced := by
    refine checkBalance_small (b := .release) (fun c => ?_) (fun c => ?_) (by decide +kernel)
    · exact lt_of_le_of_lt (totalOf_le_total _ _) (by decide +kernel)
    · exact lt_of_le_of_lt (totalOf_le_total _ _) (by decide +kernel)
  small := by decide +kernel
  creds := by
    intro i hi hc
    simp only [in87, List.mem_cons, List.not_mem_nil, or_false] at hi
    rcases hi with rfl | rfl
    · exact absurd (by decide +kernel) hc
    · exact absurd (by decide +kernel) hc

theorem limits87 : Limits 900 in87 asset87 := by
  refine ⟨by decide, ?_, Or.inl (by decide +kernel)⟩
  have h : ∀ i ∈ in87, i.cred = none := by decide +kernel
  intro i hi _ c hc
  rw [h i hi] at hc
  cases hc

/-- the library refuses this transfer, and it would be accepted -/
example : (¬ ∃ res, TransferNote.generate .release rng in87 out87 natPk 900 [] = .ok res) ∧
    ∃ n : TransferNote, n.inputs_nullifiers = in87.map nullifierOf ∧ ∀ t ≤ 900, n.verify natVk (treeRoot 1 tree87) t = .ok () := by
  constructor
  · rw [C87_exact complete natKeys_eq transferable87 limits87]
    exact fun h => h (by decide +kernel) (by decide +kernel)
  · obtain ⟨n, h1, -, -, -, h2⟩ := C87_elsewhere_partial complete natKeys_eq transferable87 limits87 0 []
    exact ⟨n, h1, h2⟩

/-- the example with a viewer is generated -/
example : ∃ res, TransferNote.generate .release rng xfrInputs xfrOutputs xfrPk 900 [] = .ok res := by
  refine (C87_exact complete xfrKeys_eq xfr_wellFormed.toTransferable ?_ .release rng []).2 (by decide +kernel)
  refine ⟨by decide, ?_, Or.inr (Or.inr ?_)⟩
  · have h : ∀ i ∈ xfrInputs, ∀ c ∈ i.cred, c.expiry.val < 900 + 2 ^ 20 := by decide +kernel
    exact fun i hi _ c hc => h i hi c hc
  · exact ⟨by decide +kernel, Or.inl (by decide +kernel)⟩

/-! On the ledger of C76: Bob pays for a mint of 50 units for Alice, who pays them on, with her credential and with the
change of an earlier payment for the fee. -/

/-- the calls that make the policy of the example asset -/
def ops87 : List PolicyOp := [.setViewer viewer.pubKey, .setIssuer (smulFr issuer E.gen), .setFreezer freezer.pub_key,
  .revealRecordOpening, .revealIthAttribute 1, .setThreshold 10]

theorem ops87_ok : runPolicy ops87 AssetPolicy.default = .ok policy := by decide +kernel

/-- what a mint adds to the nullifiers -/
theorem minted87 {d : Fin 256} {h : List Event} {s s1 : LedgerState} (ran : run d h = .ok s) {n : MintNote}
    {ins : List (RecordOpening × AccMemberWitness)} {outs : List RecordOpening} {blind : F} {who : UserPubKey} {time : U64}
    (ran1 : run d (h ++ [.block [⟨.mint n, ins, outs⟩] blind who time]) = .ok s1) {x : F}
    (hx : x ≠ n.input_nullifier) (hs : x ∉ s.nullifiers) : x ∉ s1.nullifiers := by
  obtain ⟨s', h1, h2⟩ := runFrom_append.1 ran1
  cases ran.symm.trans h1
  obtain ⟨-, -, h3⟩ := bind_ok_iff.1 h2
  obtain ⟨_, -, -, -, hn, -⟩ := LedgerState.insertBlock_ok h3
  rw [hn]
  rintro (hm | hm)
  · exact hx (List.mem_singleton.1 hm)
  · exact hs hm

/-- Alice's change of the fee -/
def chg87 : RecordOpening := ⟨95, AssetDefinition.native, alice.pubKey, .unfrozen, 50⟩

theorem minter87 {info : TxnFeeInfo} {chg ro : RecordOpening} {n : MintNote} {sk : Fr}
    (new : TxnFeeInfo.new 50 (Coin.feeInput 2 led0 ⟨feeRec, 0, alice, none⟩) 5 = .ok (info, chg))
    (gen : MintNote.generate rng ro seed desc info pk2 = .ok (n, sk)) :
    chg = chg87 ∧ n.input_nullifier = alice.nullify 0 0 feeRec.commitment := by
  obtain ⟨h1, h2, h3, h4, h5, -, h6, -⟩ := C23_change _ _ _ _ _ new
  constructor
  · obtain ⟨a, x, k, f, z⟩ := chg
    have ha : a = 95 := Fin.ext (by
      have : a.val + 5 = 100 := h1
      show a.val = 95
      omega)
    have hk : k = alice.pubKey := h2
    dsimp only at h3 h4 h5
    subst ha hk h3 h4 h5
    rfl
  · rw [mint_nullifier gen, h6]
    decide +kernel

/-- the ledger after the mint -/
theorem leaves87 {s1 : LedgerState} {n : MintNote} {info : TxnFeeInfo} {ro : RecordOpening} {sk : Fr}
    {ins : List (RecordOpening × AccMemberWitness)} {outs : List RecordOpening} {blind : F} {who : UserPubKey} {time : U64}
    (gen : MintNote.generate rng ro seed desc info pk2 = .ok (n, sk))
    (ran1 : run 2 ([.grant feeRec, .grant assetRec] ++ [.block [⟨.mint n, ins, outs⟩] blind who time]) = .ok s1) :
    s1.leaves[2]? = some info.fee_chg_ro.commitment ∧ s1.leaves.length = 5 := by
  obtain ⟨s', h1, h2⟩ := runFrom_append.1 ran1
  cases hist_start.symm.trans h1
  obtain ⟨-, -, h3⟩ := bind_ok_iff.1 h2
  obtain ⟨_, -, hl, -⟩ := LedgerState.insertBlock_ok h3
  rw [hl, ← (C18_fields gen).2.2.2.1]
  exact ⟨rfl, rfl⟩

example : ∃ e s1 e2 s3, run 2 ([.grant feeRec, .grant assetRec] ++ [e]) = .ok s1 ∧
    run 2 ([.grant feeRec, .grant assetRec] ++ [e] ++ [] ++ [e2]) = .ok s3 := by
  obtain ⟨info, chg, n, sk, new, gen, e, s1, he, ran1, -, pays⟩ := C87_usable_partial Toy.complete Toy.batch hist_start
    ops87_ok (by decide +kernel) (seed := seed) (desc := desc) (ad := asset) (by decide +kernel)
    (fee_coin := ⟨feeRec, 0, alice, none⟩) ⟨rfl, rfl, rfl, List.not_mem_nil⟩ rfl (fee := 5)
    (by decide +kernel) (amount := 50) (by decide) (fun _ => by decide +kernel) keys2 ⟨by decide, by decide⟩ 702 50 rng 52 bob.pubKey
    alice 32 (some cred) rfl
  subst he
  obtain ⟨rfl, hn⟩ := minter87 new gen
  obtain ⟨l1, l2⟩ := leaves87 gen ran1
  rw [(C23_change _ _ _ _ _ new).2.2.2.2.2.1] at l1
  obtain ⟨info2, chg2, n2, sk2, -, -, e2, s3, -, ran3⟩ := pays (later := []) (s2 := s1) (by rw [List.append_nil]; exact ran1)
    (minted87 hist_start ran1 (by rw [hn]; decide +kernel) List.not_mem_nil) (fee_coin2 := ⟨chg87, 2, alice, none⟩)
    ⟨l1, rfl, rfl, minted87 hist_start ran1 (by rw [hn]; decide +kernel) List.not_mem_nil⟩
    rfl (by decide +kernel) (by decide +kernel) (outputs := [outBob, outAlice]) (fee2 := 5) (by decide +kernel)
    (by decide +kernel) (by decide +kernel) (pk2 := ⟨.transfer 2 3 2, 2, 3, 2⟩) (vk2 := ⟨.transfer 2 3 2, 2, 3, 2⟩) rfl
    (valid_until := 900) (time2 := 703) (by decide) (by decide)
    (fun _ => ⟨cred, rfl, by decide +kernel, by decide +kernel, by decide +kernel⟩)
    ⟨by rw [l2]; decide, by rw [l2]; decide⟩
    .release 53 rng [] 54 bob.pubKey
  exact ⟨_, s1, e2, s3, ran1, ran3⟩

/-- units that nobody can pay with are minted for Bob, and frozen -/
example : ∃ e s1 e2 s3, run 2 ([.grant feeRec, .grant assetRec] ++ [e]) = .ok s1 ∧
    run 2 ([.grant feeRec, .grant assetRec] ++ [e] ++ [] ++ [e2]) = .ok s3 := by
  obtain ⟨info, chg, n, sk, new, gen, e, s1, he, ran1, freezes⟩ := C87_frozen_partial Toy.complete Toy.batch hist_start
    (policy := asset87.policy) (seed := seed) (desc := desc) (ad := asset87) (by decide +kernel) (freezer := freezer)
    (by decide +kernel) (by decide +kernel)
    (fee_coin := ⟨feeRec, 0, alice, none⟩) ⟨rfl, rfl, rfl, List.not_mem_nil⟩ rfl (fee := 5)
    (by decide +kernel) (amount := 50) (by decide) keys2 ⟨by decide, by decide⟩ 702 50 rng 52 bob.pubKey
    (owner := bob.pubKey) (by decide +kernel) 32 rfl
  subst he
  obtain ⟨rfl, hn⟩ := minter87 new gen
  obtain ⟨l1, l2⟩ := leaves87 gen ran1
  rw [(C23_change _ _ _ _ _ new).2.2.2.2.2.1] at l1
  obtain ⟨info2, chg2, n2, sk2, outs, -, -, -, e2, s3, -, ran3⟩ := freezes (later := []) (s2 := s1)
    (by rw [List.append_nil]; exact ran1)
    (minted87 hist_start ran1 (by rw [hn]; decide +kernel) List.not_mem_nil) (fee_coin2 := ⟨chg87, 2, alice, none⟩)
    ⟨l1, rfl, rfl, minted87 hist_start ran1 (by rw [hn]; decide +kernel) List.not_mem_nil⟩
    rfl (by decide +kernel) (fee2 := 5) (by decide +kernel) (pk2 := ⟨.freeze 2 2, 2, 2⟩) (vk2 := ⟨.freeze 2 2, 2, 2⟩) rfl
    ⟨by rw [l2]; decide, by rw [l2]; decide⟩ 703 53 frzRng 54 bob.pubKey
  exact ⟨_, s1, e2, s3, ran1, ran3⟩

/-! The asset with a viewer and the highest threshold. -/

/-- the asset -/
def far87 : AssetDefinition :=
  ⟨newDomestic seed desc, { AssetPolicy.default with
    viewer_pk := E.gen, reveal_threshold := Fin.ofNat (2 ^ 128) (2 ^ 128 - 1) }⟩
/-- Alice's record of it -/
def farRec87 : RecordOpening := ⟨50, far87, alice.pubKey, .unfrozen, 32⟩
/-- the leaves of the tree -/
def farTree87 : List (ZMod p) := [feeRec.commitment, farRec87.commitment]
/-- the inputs -/
def farIn87 : List TransferNoteInput :=
  [⟨feeRec, ⟨treePath 1 farTree87 0, treeRoot 1 farTree87, 0⟩, alice, none⟩,
   ⟨farRec87, ⟨treePath 1 farTree87 1, treeRoot 1 farTree87, 1⟩, alice, none⟩]

/-- a transfer of it meets the hypotheses of `C87_far_false`, and is refused by the prover -/
example : Moves far87 farIn87 ∧ moved farIn87 < 2 ^ 127 ∧
    (TransferNote.generate .release rng farIn87 [chgRec, { farRec87 with pub_key := bob.pubKey }] natPk 900 []
      matches .error .failedSnark) :=
  ⟨⟨by decide +kernel, farIn87[1], by simp [farIn87], rfl⟩, by decide +kernel, by decide +kernel⟩

end Cap.Examples
