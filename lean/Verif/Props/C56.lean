/-
C56: what a user holds on the ledger can be spent.

status: partial
note: C56_partial: after any honest history of the reference ledger, whoever owns unspent, unfrozen native records of the tree that cover the outputs and the fee can pay with them: with the paths the tree gives, generation succeeds for every randomness, the note is accepted by the validator in a block of its own, and the block goes into the ledger. C56_asset_partial, C56_mint_partial and C56_freeze_partial say the same for other assets, mints and freezes. C56_received: whatever a block creates is on the ledger and unspent afterwards, so that payments can be chained. Hypotheses: room in the tree; valid_until below 2^20 and the other limits of C53 to C55; the PRF and commitment values behind the nullifiers of this very history do not collide (Spec.NoClash, named values only). Completeness and batch correctness of the SNARK are assumed.
-/
import Verif.Lemmas.Wallet
import Verif.Props.C53
import Verif.Props.C54

namespace Cap

open Spec

variable [E : CapEnv] [S : CapExt]

section
variable {d : Fin 256} {h : List Event} {s : LedgerState}

theorem lookup_member (books : Books d h s) {ro : RecordOpening} {uid : U64} (on : OnLedger h ro uid) :
    (lookup d.val s uid).path.length = d.val ∧ (lookup d.val s uid).root = treeRoot d.val s.leaves ∧
      merkleRoot ((lookup d.val s uid).uid.val : F) ro.commitment (lookup d.val s uid).path = treeRoot d.val s.leaves := by
  refine ⟨treePath_length _ _ _, rfl, treePath_root (by simpa using books.room.1) ?_⟩
  show s.leaves[uid.val]? = _
  rw [books.leaves, List.getElem?_map, on.there]
  rfl

theorem Spec.Held.spendable (books : Books d h s) {c : Coin} (held : Held h c)
    (real : c.ro.asset_def ≠ AssetDefinition.dummy) :
    Spendable d.val (treeRoot d.val s.leaves) (c.input d.val s) := by
  obtain ⟨h1, h2, h3⟩ := lookup_member books held.on
  exact ⟨h1, held.owned, held.unfrozen, fun _ => ⟨h2, h3⟩, fun e => absurd e real⟩

theorem Spec.Held.pays (books : Books d h s) {c : Coin} (held : Held h c)
    (native : c.ro.asset_def = AssetDefinition.native) {fee : Amount} (covers : fee.val ≤ c.ro.amount.val) :
    PaysFee d.val (treeRoot d.val s.leaves) (c.feeInput d.val s) fee := by
  obtain ⟨h1, h2, h3⟩ := lookup_member books held.on
  exact ⟨h1, native, held.unfrozen, held.owned, ⟨h2, h3⟩, covers⟩

omit S in
theorem coin_nullifier (d : ℕ) (s : LedgerState) (c : Coin) :
    nullifierOf (c.input d s) = c.nullifying.value := rfl

omit S in
theorem coin_fee_nullifier (d : ℕ) (s : LedgerState) (c : Coin) :
    nullifierOf (c.feeInput d s).toTransferInput = c.nullifying.value := rfl

omit S in
theorem freezable_nullifier (d : ℕ) (s : LedgerState) (c : Freezable) :
    freezerNullifierOf (c.input d s) = c.nullifying.value := rfl

/-- `generate_native` goes through `generate` -/
theorem generateNative_generate {b : Build} {chg_blind : F} {rng : TransferRand} {inputs : List TransferNoteInput}
    {outputs : List RecordOpening} {fee : Amount} {valid_until : U64} {pk : TransferProvingKey} {n : TransferNote}
    {sk : Fr} {chg : RecordOpening}
    (gen : TransferNote.generateNative b chg_blind rng inputs outputs fee valid_until pk = .ok (n, sk, chg)) :
    TransferNote.generate b rng inputs (chg :: outputs) pk valid_until [] = .ok (n, sk) := by
  unfold TransferNote.generateNative at gen
  split at gen
  · cases gen
  · simp only [bind_ok_iff] at gen
    obtain ⟨_, _, _, _, _, _, _, _, _, _, ⟨n', sk'⟩, gen', e⟩ := gen
    cases e
    exact gen'

/-- a note that spends unspent records of the ledger is accepted in a block of its own -/
theorem block_of_held (complete : SnarkComplete) (batch : SnarkBatch) (ran : run d h = .ok s) (honest : Honest d h)
    {new : List Nullifying} (clash : NoClash h new) (once : (new.map (·.uid)).Nodup)
    (unspent : ∀ x ∈ new, x.ro.asset_def.code ≠ dummyCode ∧ x.uid.val ∉ spentAt h) {t : Txn} (made : Made d t)
    {time : U64} (timely : Timely time t.note) (root : t.note.merkleRoot = treeRoot d.val s.leaves)
    (nullifiers : t.note.nullifiers = new.map Nullifying.value) (room : Room d.val s (t.creates.length + 1)) (blind : F)
    (who : UserPubKey) :
    ∃ s', run d (h ++ [.block [t] blind who time]) = .ok s' ∧ Honest d (h ++ [.block [t] blind who time]) := by
  have books := books_run h ran honest
  obtain ⟨s', hs'⟩ := one_block complete batch (s := s) (time := time) made timely
    (by rw [root]; exact books.root)
    (by rw [nullifiers]; exact nodup_of_noClash (f := id) (by rw [List.map_id]; exact clash) once)
    (by
      rw [nullifiers]
      simp only [List.mem_map, forall_exists_index, and_imp, forall_apply_eq_imp_iff₂]
      exact fun x hx => fresh_of_unspent books honest clash hx (unspent x hx).1 (unspent x hx).2)
    room blind who
  refine ⟨s', runFrom_append.2 ⟨s, ran, hs'⟩, ?_⟩
  intro e he t' ht
  rcases List.mem_append.1 he with he | he
  · exact honest e he t' ht
  · rw [List.mem_singleton] at he
    subst he
    rw [Event.txns, List.mem_singleton] at ht
    rw [ht]
    exact made

/-- **Native coins can be paid with.** -/
theorem C56_partial (complete : SnarkComplete) (batch : SnarkBatch) (ran : run d h = .ok s) (honest : Honest d h)
    {coins : List Coin} (some_coin : coins ≠ []) (held : ∀ c ∈ coins, Held h c)
    (native : ∀ c ∈ coins, c.ro.asset_def = AssetDefinition.native) (once : (coins.map (·.uid)).Nodup)
    (clash : NoClash h (coins.map Coin.nullifying))
    {outputs : List RecordOpening} {fee : Amount}
    (outs : ∀ o ∈ outputs, o.asset_def = AssetDefinition.native ∧ o.freeze_flag = .unfrozen)
    (covers : total outputs + fee.val ≤ total (coins.map (·.ro))) (small : total (coins.map (·.ro)) < 2 ^ 127)
    {pk : TransferProvingKey} {vk : TransferVerifyingKey}
    (keys : transferPreprocess coins.length (outputs.length + 1) d = .ok (pk, vk))
    {valid_until time : U64} (window : valid_until.val < 2 ^ 20) (timely : time ≤ valid_until)
    (room : Room d.val s (outputs.length + 2)) (b : Build) (chg_blind : F) (rng : TransferRand) (blind : F)
    (who : UserPubKey) :
    ∃ n sk chg, TransferNote.generateNative b chg_blind rng (coins.map (Coin.input d.val s)) outputs fee valid_until pk =
        .ok (n, sk, chg) ∧
      total (coins.map (·.ro)) = total outputs + chg.amount.val + fee.val ∧
      ∃ e s', e = .block [⟨.transfer n, coins.map (fun c => (c.ro, lookup d.val s c.uid)), chg :: outputs⟩] blind who time ∧
        run d (h ++ [e]) = .ok s' ∧ Honest d (h ++ [e]) := by
  have books := books_run h ran honest
  have hro : (coins.map (Coin.input d.val s)).map (·.ro) = coins.map (·.ro) := by rw [List.map_map]; rfl
  have hnul : (coins.map (Coin.input d.val s)).map nullifierOf = coins.map (fun c => c.nullifying.value) := by
    rw [List.map_map]; rfl
  have pay : NativePayment coins.length (outputs.length + 1) d.val (treeRoot d.val s.leaves)
      (coins.map (Coin.input d.val s)) outputs fee := by
    refine ⟨by simp, rfl, ?_, ?_, outs, ?_, ?_, by rw [hro]; exact covers, by rw [hro]; exact small⟩
    · cases coins with
      | nil => exact absurd rfl some_coin
      | cons c cs => exact ⟨_, _, rfl, native c List.mem_cons_self⟩
    · simp only [List.mem_map, forall_exists_index, and_imp, forall_apply_eq_imp_iff₂]
      exact fun c hc => Or.inl (native c hc)
    · simp only [List.mem_map, forall_exists_index, and_imp, forall_apply_eq_imp_iff₂]
      exact fun c hc => (held c hc).spendable books (by rw [native c hc]; exact nativeDef_ne_dummyDef)
    · rw [hnul]
      exact nodup_of_noClash clash once
  obtain ⟨n, sk, chg, gen, h1, h2, h3, h4, h5⟩ := C55_native_partial complete keys pay window b chg_blind rng
  rw [hro] at h1
  rw [hnul] at h3
  have made : Made d ⟨.transfer n, coins.map (fun c => (c.ro, lookup d.val s c.uid)), chg :: outputs⟩ := by
    have := Made.transfer keys (generateNative_generate gen)
    rw [List.map_map] at this
    exact this
  have hv := TransferNote.verify_ok.1 (h5 time timely)
  obtain ⟨s', hs', ho'⟩ := block_of_held complete batch ran honest clash (by rw [List.map_map]; exact once)
    (by
      simp only [List.mem_map, forall_exists_index, and_imp, forall_apply_eq_imp_iff₂]
      exact fun c hc => ⟨by show c.ro.asset_def.code ≠ _; rw [native c hc]; exact native_ne_dummy, (held c hc).on.unspent⟩)
    made (show time ≤ n.aux_info.valid_until from hv.2.1) hv.1.symm (h3.trans (by rw [List.map_map]; rfl))
    room blind who
  exact ⟨n, sk, chg, gen, h1, _, s', rfl, hs', ho'⟩

/-- **Coins of other assets can be paid with**, together with a native coin for the fee. -/
theorem C56_asset_partial (complete : SnarkComplete) (batch : SnarkBatch) (ran : run d h = .ok s) (honest : Honest d h)
    {ad : AssetDefinition} (code : ad.code ≠ nativeCode ∧ ad.code ≠ dummyCode)
    (freezer_has_viewer : ad.policy.freezer_pk ≠ 0 → ad.policy.viewer_pk ≠ 0)
    {fee_coin : Coin} {coins : List Coin} (some_coin : coins ≠ []) (held : ∀ c ∈ fee_coin :: coins, Held h c)
    (native : fee_coin.ro.asset_def = AssetDefinition.native) (asset : ∀ c ∈ coins, c.ro.asset_def = ad)
    (once : ((fee_coin :: coins).map (·.uid)).Nodup)
    (clash : NoClash h ((fee_coin :: coins).map Coin.nullifying))
    {outputs : List RecordOpening} {fee : Amount}
    (outs : ∀ o ∈ outputs, o.asset_def = ad ∧ o.freeze_flag = .unfrozen)
    (balanced : total (coins.map (·.ro)) = total outputs) (covers : fee.val ≤ fee_coin.ro.amount.val)
    (small : fee_coin.ro.amount.val + total (coins.map (·.ro)) < 2 ^ 127)
    {pk : TransferProvingKey} {vk : TransferVerifyingKey}
    (keys : transferPreprocess (coins.length + 1) (outputs.length + 1) d = .ok (pk, vk))
    {valid_until time : U64}
    (creds : ad.policy.cred_pk ≠ 0 → ∀ c ∈ coins,
      ∃ cr, c.cred = some cr ∧ cr.verify valid_until = .ok () ∧ cr.attrs.length = 8)
    (limits : Limits valid_until ((fee_coin.feeInput d.val s).toTransferInput :: coins.map (Coin.input d.val s)) ad)
    (timely : time ≤ valid_until)
    (room : Room d.val s (outputs.length + 2)) (b : Build) (chg_blind : F) (rng : TransferRand) (extra : List Byte)
    (blind : F) (who : UserPubKey) :
    ∃ info chg n sk, TxnFeeInfo.new chg_blind (fee_coin.feeInput d.val s) fee = .ok (info, chg) ∧
      TransferNote.generateNonNative b rng (coins.map (Coin.input d.val s)) outputs info valid_until pk extra =
        .ok (n, sk) ∧
      chg.amount.val + fee.val = fee_coin.ro.amount.val ∧
      ∃ e s', e = .block [⟨.transfer n, (fee_coin :: coins).map (fun c => (c.ro, lookup d.val s c.uid)), chg :: outputs⟩]
          blind who time ∧
        run d (h ++ [e]) = .ok s' ∧ Honest d (h ++ [e]) := by
  have books := books_run h ran honest
  have hro : (coins.map (Coin.input d.val s)).map (·.ro) = coins.map (·.ro) := by rw [List.map_map]; rfl
  have hnul : nullifierOf (fee_coin.feeInput d.val s).toTransferInput :: (coins.map (Coin.input d.val s)).map nullifierOf =
      (fee_coin :: coins).map (fun c => c.nullifying.value) := by
    rw [List.map_map]; rfl
  have hreal : ∀ c ∈ coins, c.ro.asset_def ≠ AssetDefinition.dummy := by
    intro c hc e
    rw [asset c hc] at e
    exact code.2 (by rw [e]; rfl)
  have pay : AssetPayment (coins.length + 1) (outputs.length + 1) d.val (treeRoot d.val s.leaves) valid_until ad
      (coins.map (Coin.input d.val s)) outputs (fee_coin.feeInput d.val s) fee := by
    refine ⟨by simp, rfl, code, freezer_has_viewer, (held _ List.mem_cons_self).pays books native covers, ?_, ?_, outs, ?_,
      ?_, by rw [hro]; exact balanced, by rw [hro]; exact small, ?_⟩
    · cases coins with
      | nil => exact absurd rfl some_coin
      | cons c cs => exact ⟨_, List.mem_cons_self, asset c List.mem_cons_self⟩
    · simp only [List.mem_map, forall_exists_index, and_imp, forall_apply_eq_imp_iff₂]
      exact fun c hc => Or.inl (asset c hc)
    · simp only [List.mem_map, forall_exists_index, and_imp, forall_apply_eq_imp_iff₂]
      exact fun c hc => (held c (List.mem_cons_of_mem _ hc)).spendable books (hreal c hc)
    · rw [hnul]
      exact nodup_of_noClash clash once
    · simp only [List.mem_map, forall_exists_index, and_imp, forall_apply_eq_imp_iff₂]
      exact fun hp c hc _ => creds hp c hc
  obtain ⟨info, chg, n, sk, new, gen, h1, h2, h3, h4, h5⟩ := C55_asset_partial complete keys pay limits b chg_blind rng extra
  have hinfo := (C23_change _ _ _ _ _ new).2.2.2.2.2
  have hgen : TransferNote.generate b rng ((fee_coin.feeInput d.val s).toTransferInput :: coins.map (Coin.input d.val s))
      (chg :: outputs) pk valid_until extra = .ok (n, sk) := by
    unfold TransferNote.generateNonNative at gen
    rw [bind_ok_iff] at gen
    obtain ⟨_, _, gen⟩ := gen
    rw [← hinfo.1, ← hinfo.2.1]
    exact gen
  have made : Made d ⟨.transfer n, (fee_coin :: coins).map (fun c => (c.ro, lookup d.val s c.uid)), chg :: outputs⟩ := by
    have := Made.transfer keys hgen
    rw [List.map_cons, List.map_map] at this
    exact this
  have hv := TransferNote.verify_ok.1 (h5 time timely)
  rw [List.map_cons] at h3
  obtain ⟨s', hs', ho'⟩ := block_of_held complete batch ran honest clash (by rw [List.map_map]; exact once)
    (by
      simp only [List.mem_map, forall_exists_index, and_imp, forall_apply_eq_imp_iff₂]
      refine fun c hc => ⟨?_, (held c hc).on.unspent⟩
      show c.ro.asset_def.code ≠ _
      rcases List.mem_cons.1 hc with rfl | hc
      · rw [native]; exact native_ne_dummy
      · rw [asset c hc]; exact code.2)
    made (show time ≤ n.aux_info.valid_until from hv.2.1) hv.1.symm (h3.trans (by rw [hnul, List.map_map]; rfl))
    room blind who
  exact ⟨info, chg, n, sk, new, gen, h1, _, s', rfl, hs', ho'⟩

/-- **Assets can be minted**, with a native coin for the fee. -/
theorem C56_mint_partial (complete : SnarkComplete) (batch : SnarkBatch) (ran : run d h = .ok s) (honest : Honest d h)
    {fee_coin : Coin} (held : Held h fee_coin) (native : fee_coin.ro.asset_def = AssetDefinition.native)
    (clash : NoClash h [fee_coin.nullifying]) {fee : Amount} (covers : fee.val ≤ fee_coin.ro.amount.val)
    {seed : F} {desc : List Byte} {ro : RecordOpening}
    (mintable : Mintable seed desc ro) (small : ro.amount.val < 2 ^ 127)
    {pk : MintProvingKey} {vk : MintVerifyingKey} (keys : mintPreprocess d = .ok (pk, vk)) {time : U64}
    (room : Room d.val s 3) (chg_blind : F) (rng : TransferRand) (blind : F) (who : UserPubKey) :
    ∃ info chg n sk, TxnFeeInfo.new chg_blind (fee_coin.feeInput d.val s) fee = .ok (info, chg) ∧
      MintNote.generate rng ro seed desc info pk = .ok (n, sk) ∧
      chg.amount.val + fee.val = fee_coin.ro.amount.val ∧
      ∃ e s', e = .block [⟨.mint n, [(fee_coin.ro, lookup d.val s fee_coin.uid)], [chg, ro]⟩] blind who time ∧
        run d (h ++ [e]) = .ok s' ∧ Honest d (h ++ [e]) := by
  have books := books_run h ran honest
  obtain ⟨info, chg, n, sk, new, gen, h1, h2, h3, h4, h5, h6, h7, h8⟩ :=
    C53_partial complete keys (held.pays books native covers) mintable small chg_blind rng
  have hinfo := (C23_change _ _ _ _ _ new).2.2.2.2.2
  have made : Made d ⟨.mint n, [(fee_coin.ro, lookup d.val s fee_coin.uid)], [chg, ro]⟩ := by
    have := Made.mint keys gen
    rw [hinfo.1, hinfo.2.1] at this
    exact this
  have hv := MintNote.verify_ok.1 h1
  obtain ⟨s', hs', ho'⟩ := block_of_held complete batch ran honest clash (by simp)
    (by
      simp only [List.mem_singleton, forall_eq]
      refine ⟨?_, held.on.unspent⟩
      show fee_coin.ro.asset_def.code ≠ _
      rw [native]; exact native_ne_dummy)
    made (time := time) (show n.mint_amount.val < 2 ^ 127 by rw [h4]; exact small) hv.1.symm
    (show [n.input_nullifier] = _ by rw [h2]; rfl) room blind who
  exact ⟨info, chg, n, sk, new, gen, h8, _, s', rfl, hs', ho'⟩

/-- **Records can be frozen and released** by their freezer, with a native coin for the fee. -/
theorem C56_freeze_partial (complete : SnarkComplete) (batch : SnarkBatch) (ran : run d h = .ok s) (honest : Honest d h)
    {fee_coin : Coin} (held : Held h fee_coin) (native : fee_coin.ro.asset_def = AssetDefinition.native)
    {records : List Freezable} (some_record : records ≠ []) (on : ∀ r ∈ records, OnLedger h r.ro r.uid)
    (real : ∀ r ∈ records, r.ro.asset_def.code ≠ dummyCode)
    (freezer : ∀ r ∈ records, r.ro.asset_def.policy.freezer_pk ≠ 0 ∧
      r.ro.asset_def.policy.freezer_pk = smulFr r.key.sec_key E.gen)
    (owners : ∀ r ∈ records, r.ro.pub_key.address ≠ 0)
    (once : (fee_coin.uid :: records.map (·.uid)).Nodup)
    (clash : NoClash h (fee_coin.nullifying :: records.map Freezable.nullifying))
    {fee : Amount} (covers : fee.val ≤ fee_coin.ro.amount.val)
    {pk : FreezeProvingKey} {vk : FreezeVerifyingKey} (keys : freezePreprocess (records.length + 1) d = .ok (pk, vk))
    {time : U64} (room : Room d.val s (records.length + 2)) (chg_blind : F) (rng : FreezeRand) (blind : F)
    (who : UserPubKey) :
    ∃ info chg n sk outs, TxnFeeInfo.new chg_blind (fee_coin.feeInput d.val s) fee = .ok (info, chg) ∧
      FreezeNote.generate rng (records.map (Freezable.input d.val s)) info pk = .ok (n, sk, outs) ∧
      chg.amount.val + fee.val = fee_coin.ro.amount.val ∧
      outs = records.mapIdx (fun k r => { r.ro with freeze_flag := r.ro.freeze_flag.flip, blind := rng.blinds k }) ∧
      ∃ e s', e = .block [⟨.freeze n, (fee_coin.ro, lookup d.val s fee_coin.uid) ::
          records.map (fun r => (r.ro, lookup d.val s r.uid)), chg :: outs⟩] blind who time ∧
        run d (h ++ [e]) = .ok s' ∧ Honest d (h ++ [e]) := by
  have books := books_run h ran honest
  have hnul : nullifierOf (fee_coin.feeInput d.val s).toTransferInput ::
      (records.map (Freezable.input d.val s)).map freezerNullifierOf =
      (fee_coin.nullifying :: records.map Freezable.nullifying).map Nullifying.value := by
    rw [List.map_map, List.map_cons, List.map_map]; rfl
  have honce : ((fee_coin.nullifying :: records.map Freezable.nullifying).map (·.uid)).Nodup := by
    rw [List.map_cons, List.map_map]; exact once
  have wf : WellFormedFreeze (records.length + 1) d.val (treeRoot d.val s.leaves) (records.map (Freezable.input d.val s))
      (fee_coin.feeInput d.val s) fee := by
    refine ⟨by simpa using some_record, by simp, held.pays books native covers, ?_, ?_⟩
    · simp only [List.mem_map, forall_exists_index, and_imp, forall_apply_eq_imp_iff₂]
      intro r hr
      obtain ⟨m1, m2, m3⟩ := lookup_member books (on r hr)
      exact .real (freezer r hr).1 (freezer r hr).2 m1 m2 m3
    · rw [hnul]
      exact nodup_of_noClash (f := id) (by rw [List.map_id]; exact clash) honce
  obtain ⟨info, chg, n, sk, outs, new, gen, h1, h2, h3, h4, h5, h6⟩ := C54_partial complete keys wf
    (by
      simp only [List.mem_map, forall_exists_index, and_imp, forall_apply_eq_imp_iff₂]
      exact fun r hr => owners r hr) chg_blind rng
  have houts : outs = records.mapIdx
      (fun k r => { r.ro with freeze_flag := r.ro.freeze_flag.flip, blind := rng.blinds k }) := by
    rw [h4]
    refine List.ext_getElem (by simp) (fun k _ _ => ?_)
    simp [Freezable.input]
  have hinfo := (C23_change _ _ _ _ _ new).2.2.2.2.2
  have made : Made d ⟨.freeze n, (fee_coin.ro, lookup d.val s fee_coin.uid) ::
      records.map (fun r => (r.ro, lookup d.val s r.uid)), chg :: outs⟩ := by
    have := Made.freeze keys gen (by rw [hinfo.2.1]; exact wf.pays.depth) (by
      simp only [List.mem_map, forall_exists_index, and_imp, forall_apply_eq_imp_iff₂]
      exact fun r hr => (lookup_member books (on r hr)).1)
    rw [hinfo.1, hinfo.2.1, List.map_map] at this
    exact this
  have hv := FreezeNote.verify_ok.1 h1
  obtain ⟨s', hs', ho'⟩ := block_of_held complete batch ran honest clash honce
    (by
      intro x hx
      rcases List.mem_cons.1 hx with rfl | hx
      · refine ⟨?_, held.on.unspent⟩
        show fee_coin.ro.asset_def.code ≠ _
        rw [native]; exact native_ne_dummy
      · obtain ⟨r, hr, rfl⟩ := List.mem_map.1 hx
        exact ⟨real r hr, (on r hr).unspent⟩)
    made (time := time) trivial hv.1.symm (h2.trans hnul) (by
      show Room d.val s ((chg :: outs).length + 1)
      rw [houts]
      simpa using room) blind who
  exact ⟨info, chg, n, sk, outs, new, gen, h6, houts, _, s', rfl, hs', ho'⟩

/-- **What a block creates can be spent next**: it is on the ledger and unspent. -/
theorem C56_received {ts : List Txn} {blind : F} {who : UserPubKey} {time : U64} (ran : run d (h ++ [.block ts blind who time]) = .ok s)
    (honest : Honest d (h ++ [.block ts blind who time]))
    (nc : NoCollision d (created (h ++ [.block ts blind who time])) (spends (h ++ [.block ts blind who time])))
    {k : ℕ} {ro : RecordOpening} (out : (ts.flatMap (·.creates))[k]? = some ro) :
    ∃ uid : U64, uid.val = (created h).length + k ∧ OnLedger (h ++ [.block ts blind who time]) ro uid := by
  obtain ⟨s1, h1, h2⟩ := runFrom_append.1 ran
  have honest1 : Honest d h := fun e he => honest e (List.mem_append_left _ he)
  have made : ∀ t ∈ ts, Made d t := honest _ (List.mem_append_right _ List.mem_cons_self)
  have nc' := nc
  rw [created_append, spends_append] at nc'
  have inv1 := inv_run h h1 honest1 (nc'.mono (fun x hx => List.mem_append_left _ hx))
  have inv := inv_run _ ran honest nc
  rw [Event.apply, bind_ok_iff] at h2
  obtain ⟨⟨⟩, hv, -⟩ := h2
  have found := inv1.found_block made (nc'.mono (fun x hx => List.mem_append_right _ hx)) (validateTxnsBatch_ok hv).1
  have there : (created (h ++ [.block ts blind who time]))[(created h).length + k]? = some ro := by
    rw [created_append, List.getElem?_append_right (by omega), Nat.add_sub_cancel_left]
    show (ts.flatMap (·.creates) ++ [_])[k]? = _
    rw [List.getElem?_append_left (List.getElem?_eq_some_iff.1 out).1]
    exact out
  have hlt : (created h).length + k < 2 ^ 64 := by
    have hs := inv.size
    rw [inv.leaves, List.length_map] at hs
    exact lt_trans (List.getElem?_eq_some_iff.1 there).1 hs
  refine ⟨⟨_, hlt⟩, rfl, there, ?_⟩
  rw [spentAt_append, List.mem_append]
  rintro (hm | hm)
  · have := inv1.found_lt _ hm
    simp at this
  · obtain ⟨x, hx, hxe⟩ := List.mem_map.1 hm
    obtain ⟨r, hr, -⟩ := found x hx
    have := (List.getElem?_eq_some_iff.1 hr).1
    rw [hxe] at this
    simp at this

end
end Cap

namespace Cap.Examples
open Toy Spec

/-- the history up to the first block: Alice has paid 60 to Bob, and Bob has collected the fee of 3 -/
noncomputable def hist3 : List Event := [.grant feeRec, .grant assetRec, .block [txn1] 47 bob.pubKey 700]

theorem hist3_run : run 2 hist3 = .ok led1 :=
  runFrom_append.2 ⟨led0, hist_start, bind_ok_iff.2 ⟨(), valid1, led1_ok⟩⟩

theorem hist3_honest : Honest 2 hist3 := fun e he => hist_honest e (List.mem_append_left [_] he)

/-- both records of Bob -/
def bobsCoins : List Coin := [⟨bobs, 3, bob, none⟩, ⟨feeRecord bob.pubKey 3 (47 : ZMod p), 4, bob, none⟩]

theorem hist3_created : created hist3 = [feeRec, assetRec, chg1, bobs, feeRecord bob.pubKey 3 (47 : ZMod p)] := by
  have h1 : collected [txn1] = 3 := by
    show Fin.ofNat (2 ^ 128) (note1.aux_info.fee.val + 0) = 3
    rw [note1_fee]
    rfl
  show [feeRec, assetRec, chg1, bobs, feeRecord bob.pubKey (collected [txn1]) 47] = _
  rw [h1]

theorem hist3_spends : spentAt hist3 = [0] := by
  have h1 : txn1.realSpends = [(feeRec, ⟨treePath 2 tree1 0, treeRoot 2 tree1, 0⟩)] := List.filter_cons_of_pos (by decide +kernel)
  show (txn1.realSpends ++ [] ++ []).map (fun x : RecordOpening × AccMemberWitness => x.2.uid.val) = _
  rw [h1]
  rfl

/-- Alice's two possible nullifier keys for a record without freezer -/
theorem feeRec_keys {nk : F} (h : NullifierKeyOf feeRec nk) :
    nk = alice.deriveNullifierKey 0 ∨ nk = computeNullifierKey feeRec.pub_key.address 0 := by
  cases h with
  | owner k own =>
    refine Or.inl ?_
    have : alice.sk = k.sk := smulFr_gen_inj own
    unfold UserKeyPair.deriveNullifierKey
    rw [this]
    rfl
  | freezer k own =>
    refine Or.inr ?_
    have h0 : smulFr (0 : Fr) E.gen = smulFr k.sec_key E.gen := by rw [← own]; decide +kernel
    rw [FreezerKeyPair.deriveNullifierKey, ← smulFr_gen_inj h0]

/-- what has to be checked for new nullifiers after the example history -/
def clashFree (new : List Nullifying) : Bool :=
  new.all (fun y =>
    decide (nullifyWithKey (alice.deriveNullifierKey 0) 0 feeRec.commitment ≠ y.value) &&
    decide (nullifyWithKey (computeNullifierKey feeRec.pub_key.address 0) 0 feeRec.commitment ≠ y.value) &&
    decide (feeRec.commitment ≠ y.ro.commitment) &&
    new.all (fun x => decide (x.value = y.value → x.point = y.point)))

theorem noClash3 {new : List Nullifying} (h : clashFree new = true) : NoClash hist3 new := by
  have hall : allSpends hist3 = [(feeRec, ⟨treePath 2 tree1 0, treeRoot 2 tree1, 0⟩)] := rfl
  have h' : ∀ y ∈ new, ((nullifyWithKey (alice.deriveNullifierKey 0) 0 feeRec.commitment ≠ y.value ∧
      nullifyWithKey (computeNullifierKey feeRec.pub_key.address 0) 0 feeRec.commitment ≠ y.value) ∧
      feeRec.commitment ≠ y.ro.commitment) ∧ ∀ x ∈ new, x.value = y.value → x.point = y.point := by
    intro y hy
    have := List.all_eq_true.1 h y hy
    rw [Bool.and_eq_true, Bool.and_eq_true, Bool.and_eq_true] at this
    exact ⟨⟨⟨of_decide_eq_true this.1.1.1, of_decide_eq_true this.1.1.2⟩, of_decide_eq_true this.1.2⟩,
      fun x hx => of_decide_eq_true (List.all_eq_true.1 this.2 x hx)⟩
  refine ⟨?_, ?_, fun x hx y hy => (h' y hy).2 x hx⟩
  · rw [hall]
    intro x hx y hy nk hk he
    rw [List.mem_singleton] at hx
    subst hx
    rcases feeRec_keys hk with rfl | rfl
    · exact absurd he (h' y hy).1.1.1
    · exact absurd he (h' y hy).1.1.2
  · rw [hall]
    intro x hx y hy he
    rw [List.mem_singleton] at hx
    subst hx
    exact absurd he (h' y hy).1.2

theorem bobsCoins_noClash : NoClash hist3 (bobsCoins.map Coin.nullifying) := noClash3 (by decide +kernel)

theorem bobsCoins_held : ∀ c ∈ bobsCoins, Held hist3 c := by
  intro c hc
  simp only [bobsCoins, List.mem_cons, List.not_mem_nil, or_false] at hc
  rcases hc with rfl | rfl
  · exact ⟨⟨by rw [hist3_created]; rfl, by rw [hist3_spends]; decide⟩, rfl, rfl⟩
  · exact ⟨⟨by rw [hist3_created]; rfl, by rw [hist3_spends]; decide⟩, rfl, rfl⟩

/-- Bob pays 20 to Alice from both records, with a fee of 3: the block is accepted and inserted -/
example : ∃ n sk chg, TransferNote.generateNative .release 50 rng (bobsCoins.map (Coin.input 2 led1))
      [⟨20, AssetDefinition.native, alice.pubKey, .unfrozen, 51⟩] 3 900 ⟨.transfer 2 2 2, 2, 2, 2⟩ = .ok (n, sk, chg) ∧
    chg.amount.val = 40 ∧ ∃ e s', e.txns.map (·.note) = [.transfer n] ∧ run 2 (hist3 ++ [e]) = .ok s' := by
  obtain ⟨n, sk, chg, h1, h2, e, s', he, hs, -⟩ := C56_partial Toy.complete Toy.batch hist3_run hist3_honest
    (coins := bobsCoins) (by simp [bobsCoins]) bobsCoins_held (by decide +kernel) (by decide +kernel) bobsCoins_noClash
    (outputs := [⟨20, AssetDefinition.native, alice.pubKey, .unfrozen, 51⟩]) (fee := 3) (by decide +kernel)
    (by decide +kernel) (by decide +kernel) (pk := ⟨.transfer 2 2 2, 2, 2, 2⟩) (vk := ⟨.transfer 2 2 2, 2, 2, 2⟩) rfl
    (valid_until := 900) (time := 702) (by decide) (by decide) ⟨by decide, by decide⟩ .release 50 rng 52 bob.pubKey
  refine ⟨n, sk, chg, h1, ?_, e, s', by rw [he]; rfl, hs⟩
  have h3 : total (bobsCoins.map (·.ro)) = 63 := by decide +kernel
  have h4 : total [(⟨20, AssetDefinition.native, alice.pubKey, .unfrozen, 51⟩ : RecordOpening)] = 20 := by decide +kernel
  rw [h3, h4] at h2
  have h5 : (3 : Amount).val = 3 := rfl
  omega

/-- Bob mints with the record received -/
example : ∃ info chg n sk, TxnFeeInfo.new 50 (Coin.feeInput 2 led1 ⟨bobs, 3, bob, none⟩) 5 = .ok (info, chg) ∧
    MintNote.generate rng mintRec seed desc info pk2 = .ok (n, sk) ∧
    ∃ e s', e.txns.map (·.note) = [.mint n] ∧ run 2 (hist3 ++ [e]) = .ok s' := by
  obtain ⟨info, chg, n, sk, h1, h2, -, e, s', he, hs, -⟩ := C56_mint_partial Toy.complete Toy.batch hist3_run hist3_honest
    (fee_coin := ⟨bobs, 3, bob, none⟩) (bobsCoins_held _ List.mem_cons_self) rfl (noClash3 (by decide +kernel)) (fee := 5)
    (by decide +kernel) (seed := seed) (desc := desc) (ro := mintRec) ⟨by decide +kernel, rfl⟩ (by decide +kernel) keys2
    (time := 702) ⟨by decide, by decide⟩ 50 rng 52 bob.pubKey
  exact ⟨info, chg, n, sk, h1, h2, e, s', by rw [he]; rfl, hs⟩

/-- the freezer's view of Alice's record -/
def alices : Freezable := ⟨assetRec, 1, freezer⟩

/-- Alice's record of the asset is frozen; Bob pays the fee -/
example : ∃ info chg n sk outs, TxnFeeInfo.new 50 (Coin.feeInput 2 led1 ⟨bobs, 3, bob, none⟩) 5 = .ok (info, chg) ∧
    FreezeNote.generate frzRng [alices.input 2 led1] info ⟨.freeze 2 2, 2, 2⟩ = .ok (n, sk, outs) ∧
    ∃ e s', e.txns.map (·.note) = [.freeze n] ∧ run 2 (hist3 ++ [e]) = .ok s' := by
  obtain ⟨info, chg, n, sk, outs, h1, h2, -, -, e, s', he, hs, -⟩ := C56_freeze_partial Toy.complete Toy.batch hist3_run
    hist3_honest (fee_coin := ⟨bobs, 3, bob, none⟩) (bobsCoins_held _ List.mem_cons_self) rfl (records := [alices])
    (by simp) (by
      intro r hr
      rw [List.mem_singleton] at hr
      subst hr
      exact ⟨by rw [hist3_created]; rfl, by rw [hist3_spends]; decide⟩) (by decide +kernel) (by decide +kernel)
    (by decide +kernel) (by decide +kernel) (noClash3 (by decide +kernel)) (fee := 5) (by decide +kernel)
    (pk := ⟨.freeze 2 2, 2, 2⟩) (vk := ⟨.freeze 2 2, 2, 2⟩) rfl (time := 702) ⟨by decide, by decide⟩ 50 frzRng 52
    bob.pubKey
  exact ⟨info, chg, n, sk, outs, h1, h2, e, s', by rw [he]; rfl, hs⟩

/-- Alice pays with the record of the asset and the change of the first note -/
example : ∃ info chg n sk, TxnFeeInfo.new 50 (Coin.feeInput 2 led1 ⟨chg1, 2, alice, none⟩) 5 = .ok (info, chg) ∧
    TransferNote.generateNonNative .release rng [Coin.input 2 led1 ⟨assetRec, 1, alice, some cred⟩] [outBob, outAlice] info 900
      ⟨.transfer 2 3 2, 2, 3, 2⟩ [] = .ok (n, sk) ∧
    ∃ e s', e.txns.map (·.note) = [.transfer n] ∧ run 2 (hist3 ++ [e]) = .ok s' := by
  obtain ⟨info, chg, n, sk, h1, h2, -, e, s', he, hs, -⟩ := C56_asset_partial Toy.complete Toy.batch hist3_run
    hist3_honest (ad := asset) (by decide +kernel) (by decide +kernel) (fee_coin := ⟨chg1, 2, alice, none⟩)
    (coins := [⟨assetRec, 1, alice, some cred⟩]) (by simp) (by
      intro c hc
      simp only [List.mem_cons, List.not_mem_nil, or_false] at hc
      rcases hc with rfl | rfl <;>
        exact ⟨⟨by rw [hist3_created]; rfl, by rw [hist3_spends]; decide⟩, rfl, rfl⟩) rfl (by decide +kernel)
    (by decide +kernel) (noClash3 (by decide +kernel)) (outputs := [outBob, outAlice]) (fee := 5) (by decide +kernel)
    (by decide +kernel) (by decide +kernel) (by decide +kernel) (pk := ⟨.transfer 2 3 2, 2, 3, 2⟩)
    (vk := ⟨.transfer 2 3 2, 2, 3, 2⟩) rfl (valid_until := 900) (time := 702)
    (by
      intro _ c hc
      rw [List.mem_singleton] at hc
      subst hc
      exact ⟨cred, rfl, by decide +kernel, by decide +kernel⟩)
    ⟨by decide, by
      intro i hi _ c hc
      simp only [List.map_cons, List.map_nil, List.mem_cons, List.not_mem_nil, or_false] at hi
      rcases hi with rfl | rfl
      · cases hc
      · cases hc; decide +kernel, Or.inr (Or.inr ⟨by decide +kernel, Or.inl (by decide +kernel)⟩)⟩
    (by decide) ⟨by decide, by decide⟩ .release 50 rng [] 52 bob.pubKey
  exact ⟨info, chg, n, sk, h1, h2, e, s', by rw [he]; rfl, hs⟩

end Cap.Examples
