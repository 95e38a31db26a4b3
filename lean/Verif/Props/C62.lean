/-
C62: a payment of the reference wallet in another asset is accepted, arrives, and returns both changes.

status: partial
note: C62_pays_partial: in every world (C59) where the records of the asset cover the payments and one native record covers the fee, spend_non_native succeeds, in both builds and for every randomness whose dummy is fresh; its note alone is accepted by the validator until the note expires and the memo signature verifies. C62_payment: whatever it returns spends held records of this asset worth exactly payments + change, and one native record worth fee + change of the fee; the history goes on. C62_arrives: each recipient's wallet, and the sender's own for what is left, has its record at its position once it scanned the block. C62_settles: the spent records are gone and the change of the fee is back. FALSE: C62_expired_false and C62_far_false: a wallet with a credential that has expired, or is valid for 2^20 or longer, cannot pay in any asset at all, because the credential's expiry is used for every asset; C62_twice_false: two payments in a row in the same asset, or with the same fee, exclude each other. Totals below 2^127, limits of the memo as in C48; completeness of the SNARK is assumed.
-/
import Verif.Lemmas.PayAsset

namespace Cap

open Spec

variable [E : CapEnv] [S : CapExt] {d : Fin 256} {b : Build} {k : UserKeyPair} {h : List Seen} {s : LedgerState}
  {w w' w'' : Wallet} {rng rng' : PaymentRand} {ad : AssetDefinition} {recipients recipients' : List (UserPubKey × Amount)}
  {fee fee' : Amount} {note note' : TransferNote} {memos memos' : List E.AeadCt} {sig sig' : E.Sig}

/-- What a payment in the asset `ad` consists of: the native record that pays the fee, the records it spends, what is left
of both, and the note and memos that are published. -/
structure Spec.AssetSent (k : UserKeyPair) (w : Wallet) (rng : PaymentRand) (ad : AssetDefinition)
    (recipients : List (UserPubKey × Amount)) (fee : Amount) (coin : RecordOpening × U64)
    (coins : List (RecordOpening × U64)) (own : Amount) (chg : RecordOpening) (note : TransferNote) (memos : List E.AeadCt) :
    Prop where
  fee_coin : w.Holds coin ∧ coin.1.asset_def = AssetDefinition.native
  fee_value : coin.1.amount.val = chg.amount.val + fee.val
  some_coin : coins ≠ []
  once : coins.Nodup
  held : ∀ x ∈ coins, w.Holds x ∧ x.1.asset_def = ad
  value : total (coins.map (·.1)) = (recipients.map (·.2.val)).sum + own.val
  fee_eq : note.aux_info.fee = fee
  valid : note.aux_info.valid_until = w.validUntil
  change : chg.asset_def = AssetDefinition.native ∧ chg.pub_key = k.pubKey ∧ chg.freeze_flag = .unfrozen ∧
    chg.blind = rng.chg_blind
  nullifiers : note.inputs_nullifiers = (coin :: coins).map (ownNullifier k) ++ [dummyNullifier rng]
  first : note.output_commitments[0]? = some chg.commitment
  rest : ∀ j ro, paid rng ad (w.everyone recipients own) j ro → note.output_commitments[j + 1]? = some ro.commitment ∧
    ∃ c, memos[j]? = some c ∧ ReceiverMemo.fromRo (rng.memos j) ro [] = .ok c
  lengths : note.output_commitments.length = (w.everyone recipients own).length + 1 ∧
    memos.length = (w.everyone recipients own).length

omit S in
theorem asset_not_dummy {ro : RecordOpening} (h : ro.asset_def.code ≠ dummyCode) : ro.isDummy = false := by
  rw [← Bool.not_eq_true, RecordOpening.isDummy_iff]
  intro e
  exact h (by rw [e]; rfl)

omit S in
theorem everyone_sum (w : Wallet) (recipients : List (UserPubKey × Amount)) (own : Amount) :
    ((w.everyone recipients own).map (·.2.val)).sum = (recipients.map (·.2.val)).sum + own.val := by
  unfold Wallet.everyone
  split
  · simp
  · next h =>
    have : own.val = 0 := by
      have : ¬ (0 : Amount).val < own.val := h
      exact Nat.eq_zero_of_not_pos this
    omega

theorem generateNonNative_generate {rng : TransferRand} {inputs : List TransferNoteInput} {outputs : List RecordOpening}
    {info : TxnFeeInfo} {valid_until : U64} {pk : TransferProvingKey} {n : TransferNote} {sk : Fr} {extra : List Byte}
    (gen : TransferNote.generateNonNative b rng inputs outputs info valid_until pk extra = .ok (n, sk)) :
    TransferNote.generate b rng (info.fee_input.toTransferInput :: inputs) (info.fee_chg_ro :: outputs) pk valid_until extra =
      .ok (n, sk) := by
  unfold TransferNote.generateNonNative at gen
  rw [bind_ok_iff] at gen
  obtain ⟨_, _, gen⟩ := gen
  exact gen

/-- **What a payment in another asset does.** -/
theorem C62_payment (world : World d b k h s w) (code : ad.code ≠ nativeCode ∧ ad.code ≠ dummyCode)
    (ok : w.spendNonNative b d s rng ad recipients fee = .ok (w', note, memos, sig)) :
    ∃ coin coins own chg, AssetSent k w rng ad recipients fee coin coins own chg note memos ∧
      TransactionNote.verifyReceiverMemosSignature (.transfer note) memos sig = .ok () ∧
      World d b k (h ++ (coin :: coins).map .spending ++ [.expecting chg]) s w' ∧ (∀ x, w'.Holds x ↔ w.Holds x) := by
  obtain ⟨sk, chg, f, x, pre, post, shelf, own, inputs, info, keys, sp⟩ := Wallet.spendNonNative_ok ok
  obtain ⟨c1, c2, c3, c4, c5, c6, c7, -⟩ := C23_change _ _ _ _ _ sp.fee_ok
  have gen := generateNonNative_generate sp.gen
  rw [c6, c7] at gen
  obtain ⟨-, -, -, -, -, -, -, -, -, -, -, hbal, hfirst, -, ad', had', hins, houts⟩ := C40_generate gen
  have hmem := Wallet.payMemos_ok sp.memos_ok
  have hne : memos ≠ [] := by
    rintro rfl
    exact absurd sp.sig_ok (by rw [(C36_empty (E := E) sk (.transfer note) sig).1]; exact fun h => nomatch h)
  have hsh := shelf_holds world ad.code sp.shelf_eq
  have hcode : ∀ y ∈ x :: pre, w.Holds y ∧ y.1.asset_def.code = ad.code := fun y hy =>
    (hsh.2 y).1 (List.mem_append_left post hy)
  have hnd : ∀ y ∈ x :: pre, y.1.isDummy = false := fun y hy => asset_not_dummy (by rw [(hcode y hy).2]; exact code.2)
  have hreal : ∀ y ∈ x :: pre,
      w.inputOf d.val s w.credential rng.dummy_key y = ⟨y.1, lookup d.val s y.2, k, w.credential⟩ := by
    intro y hy
    rw [inputOf_real w _ (hnd y hy), (worldOk world).key]
  have hin : inputs = (x :: pre).map (fun y => ⟨y.1, lookup d.val s y.2, k, w.credential⟩) ++
      [⟨dummyOf rng, Wallet.dummyWitness d.val, rng.dummy_key, none⟩] := by
    rw [sp.inputs_eq, List.map_append, List.map_singleton]
    congr 1
    · exact List.map_congr_left hreal
    · exact congrArg (fun x => [x]) (inputOf_dummy w _)
  -- the asset
  have hev : Wallet.payOutputs rng.blinds ad (w.everyone recipients own) ≠ [] := by
    intro e
    have := hmem.1
    rw [e] at this
    exact hne (List.length_eq_zero_iff.1 this)
  have had : ad' = ad := by
    obtain ⟨o, os, ho⟩ := List.exists_cons_of_ne_nil hev
    have h1 := houts o (by rw [List.tail_cons, ho]; exact List.mem_cons_self)
    have h2 := (payOutputs_mem (o := o) (by rw [ho]; exact List.mem_cons_self)).1
    rw [← h1, h2]
  subst had
  have hasset : ∀ y ∈ x :: pre, w.Holds y ∧ y.1.asset_def = ad' := by
    intro y hy
    refine ⟨(hcode y hy).1, ?_⟩
    rcases hins ⟨y.1, lookup d.val s y.2, k, w.credential⟩ (by
      rw [List.tail_cons, hin]
      exact List.mem_append_left _ (List.mem_map.2 ⟨y, hy, rfl⟩)) with e | e
    · exact absurd ((RecordOpening.isDummy_iff _).2 e) (by simp [hnd y hy])
    · exact e
  have hf : w.Holds f ∧ f.1.asset_def = AssetDefinition.native :=
    ⟨(((shelf_holds world nativeCode sp.fee_shelf.1).2 f).1 sp.fee_shelf.2).1, hfirst _ rfl⟩
  -- the value
  have hros : inputs.map (·.ro) = (x :: pre).map (·.1) ++ [dummyOf rng] := by
    rw [hin, List.map_append, List.map_map]
    rfl
  obtain ⟨i0, is, hi0, hbal⟩ := hbal
  rw [List.map_cons] at hi0
  obtain ⟨rfl, rfl⟩ := List.cons.inj hi0
  have hrl : real (f.1 :: inputs.map (·.ro)) = f.1 :: (x :: pre).map (·.1) := by
    rw [real_cons_of_ne (by rw [hf.2]; exact nativeDef_ne_dummyDef), hros]
    unfold real
    rw [List.filter_append, List.filter_eq_self.2, List.filter_eq_nil_iff.2, List.append_nil]
    · intro r hr
      rw [List.mem_singleton] at hr
      rw [hr]
      simp [dummyOf, RecordOpening.newDummy]
    · intro r hr
      obtain ⟨y, hy, rfl⟩ := List.mem_map.1 hr
      rw [decide_eq_true_eq]
      intro e
      exact absurd ((RecordOpening.isDummy_iff _).2 e) (by simp [hnd y hy])
  have hbal : ∀ c, totalOf c (f.1 :: (x :: pre).map (·.1)) =
      totalOf c (chg :: Wallet.payOutputs rng.blinds ad' (w.everyone recipients own)) +
        if c = f.1.asset_def.code then note.aux_info.fee.val else 0 := by
    intro c
    have := hbal c
    rw [← hrl]
    exact this
  have hval := hbal ad'.code
  have hnn : ¬ AssetDefinition.native.code = ad'.code := fun e => code.1 e.symm
  rw [totalOf_cons, hf.2, if_neg hnn, Nat.zero_add,
    totalOf_eq_total (fun r hr => by
      obtain ⟨y, hy, rfl⟩ := List.mem_map.1 hr
      rw [(hasset y hy).2]),
    if_neg (fun e => hnn e.symm), Nat.add_zero, totalOf_cons,
    c3, if_neg hnn, Nat.zero_add,
    totalOf_eq_total (fun o ho => by rw [(payOutputs_mem ho).1]), payOutputs_total, everyone_sum] at hval
  have hfee : note.aux_info.fee = fee := by
    have h1 := hbal nativeCode
    rw [totalOf_cons, hf.2, if_pos (show AssetDefinition.native.code = nativeCode from rfl),
      totalOf_eq_zero (fun r hr => by
        obtain ⟨y, hy, rfl⟩ := List.mem_map.1 hr
        rw [(hasset y hy).2]
        exact code.1), Nat.add_zero,
      if_pos (show nativeCode = AssetDefinition.native.code from rfl), totalOf_cons, c3,
      if_pos (show AssetDefinition.native.code = nativeCode from rfl),
      totalOf_eq_zero (fun o ho => by rw [(payOutputs_mem ho).1]; exact code.1), Nat.add_zero] at h1
    dsimp only at c1
    exact Fin.ext (by omega)
  have hchg : chg.pub_key = k.pubKey := by
    rw [c2]
    exact (C59_sound world f hf.1).2.1
  have hout := transfer_commitments gen
  obtain ⟨wit, pub, tg⟩ := TransferNote.generate_ok.1 gen
  refine ⟨f, x :: pre, own, chg, ⟨hf, c1.symm, by simp, (List.nodup_append.1 hsh.1).1, hasset, hval, hfee, tg.note_valid,
    ⟨c3, hchg, c4, c5⟩, ?_, by rw [hout]; rfl, ?_, ?_⟩, ?_, ?_, ?_⟩
  · rw [transfer_nullifiers gen, hin, List.map_cons, List.map_append, List.map_map, (worldOk world).key]
    rfl
  · intro j ro hj
    have hj' := payOutputs_get.2 hj
    refine ⟨?_, ?_⟩
    · rw [hout, List.map_cons, List.getElem?_cons_succ, List.getElem?_map, hj']
      rfl
    · obtain ⟨c, q1, q2⟩ := hmem.2 j ro hj'
      rw [Nat.zero_add] at q2
      exact ⟨c, q1, q2⟩
  · refine ⟨?_, ?_⟩
    · rw [hout, List.length_map, List.length_cons, Wallet.payOutputs_length]
    · rw [hmem.1, Wallet.payOutputs_length]
  · obtain ⟨sig', q1, q2⟩ := C36_sign_verify sk (.transfer note) memos
      (by show note.aux_info.txn_memo_ver_key = _; rw [tg.ver_key, tg.sign_key]) hne
    rw [sp.sig_ok] at q1
    cases q1
    exact q2
  · have hw1 := world.spending hf.1
    have hw := Wallet.markAll_world (x :: pre) hw1 (fun y hy => (hasset y hy).1)
    rw [List.filter_eq_self.2 (fun y hy => by rw [hnd y hy]; rfl)] at hw
    rw [sp.wallet, List.map_cons, List.append_cons h (Seen.spending f)]
    exact .expecting hw hchg c4
  · intro y
    rw [sp.wallet]
    show (∃ e ∈ ((w.markUnconfirmedSpent (w.nullify f) f.1 f.2).markAll (x :: pre)).unspent, _) ↔ _
    rw [(Wallet.markAll_rest _ (x :: pre)).1]
    rfl

/-- **Payments in another asset are accepted.** -/
theorem C62_pays_partial (complete : SnarkComplete) (batch : SnarkBatch) (world : World d b k h s w) (apart : Apart k h)
    (code : ad.code ≠ nativeCode ∧ ad.code ≠ dummyCode)
    (freezer_has_viewer : ad.policy.freezer_pk ≠ 0 → ad.policy.viewer_pk ≠ 0)
    (genuine : ∀ x, w.Holds x → (x.1.asset_def.code = nativeCode → x.1.asset_def = AssetDefinition.native) ∧
      (x.1.asset_def.code = ad.code → x.1.asset_def = ad))
    -- the records of the asset, and one that can pay the fee
    {coins : List (RecordOpening × U64)} (once : coins.Nodup)
    (all : ∀ x, x ∈ coins ↔ w.Holds x ∧ x.1.asset_def.code = ad.code) (some_coin : coins ≠ [])
    (covers : (recipients.map (·.2.val)).sum ≤ total (coins.map (·.1)))
    (fee_coin : ∃ x, w.Holds x ∧ x.1.asset_def.code = nativeCode ∧ fee ≤ x.1.amount)
    (small : ∀ x, w.Holds x → x.1.asset_def.code = nativeCode → x.1.amount.val + total (coins.map (·.1)) < 2 ^ 127)
    (recip : recipients ≠ [])
    -- the policy
    (window : w.validUntil.val < 2 ^ 20)
    (creds : ad.policy.cred_pk ≠ 0 → ∃ c, w.credential = some c ∧ c.verify c.expiry = .ok () ∧ c.attrs.length = 8)
    (viewed : ad.policy.viewer_pk = 0 ∨
      (ad.policy.reveal_map[0] = ad.policy.reveal_map[1] ∧ ad.policy.reveal_threshold.val < 2 ^ 127))
    -- what is drawn and computed
    (keys : ∀ n m, 3 ≤ n → n ≤ coins.length + 2 → recipients.length + 1 ≤ m → m ≤ recipients.length + 2 →
      ∃ x, transferPreprocess n m d = .ok x)
    (encrypts : ∀ own j ro, paid rng ad (w.everyone recipients own) j ro →
      ∃ c, ReceiverMemo.fromRo (rng.memos j) ro [] = .ok c)
    (dummy : dummyNullifier rng ∉ s.nullifiers ∧ ∀ x, w.Holds x → ownNullifier k x ≠ dummyNullifier rng) :
    ∃ w' note memos sig, w.spendNonNative b d s rng ad recipients fee = .ok (w', note, memos, sig) ∧
      note.aux_info.fee = fee ∧ TransactionNote.verifyReceiverMemosSignature (.transfer note) memos sig = .ok () ∧
      ∀ time : U64, time ≤ w.validUntil → validateTxnsBatch d s [.transfer note] time = .ok () := by
  obtain ⟨nd, mem⟩ := (worldOk world).ok.get ad.code
  have perm : ((mapGet ad.code w.unspent).getD []).Perm coins :=
    (List.perm_ext_iff_of_nodup nd once).2 (fun x => (mem x).trans (all x).symm)
  obtain ⟨l, hl⟩ : ∃ l, mapGet ad.code w.unspent = some l := by
    cases hg : mapGet ad.code w.unspent with
    | some l => exact ⟨l, rfl⟩
    | none =>
      rw [hg] at perm
      exact absurd perm.nil_eq.symm some_coin
  rw [hl, Option.getD_some] at nd mem perm
  have htot : total (l.map (·.1)) = total (coins.map (·.1)) := ((perm.map _).map _).sum_eq
  -- the fee record
  obtain ⟨f, hfr, hfh, hfn, hff⟩ : ∃ f, w.findRecordForFee fee = .ok f ∧ w.Holds f ∧
      f.1.asset_def.code = nativeCode ∧ fee ≤ f.1.amount := by
    obtain ⟨y, hy1, hy2, hy3⟩ := fee_coin
    obtain ⟨-, memn⟩ := (worldOk world).ok.get nativeCode
    obtain ⟨ln, hln⟩ : ∃ l, mapGet nativeCode w.unspent = some l := by
      cases hg : mapGet nativeCode w.unspent with
      | some l => exact ⟨l, rfl⟩
      | none =>
        have := (memn y).2 ⟨hy1, hy2⟩
        rw [hg] at this
        cases this
    rw [hln, Option.getD_some] at memn
    obtain ⟨f, hf⟩ := Wallet.findRecordForFee_intro hln ((memn y).2 ⟨hy1, hy2⟩) hy3
    obtain ⟨l', hl', hf1, hf2⟩ := Wallet.findRecordForFee_ok hf
    rw [hln] at hl'
    cases hl'
    obtain ⟨g1, g2⟩ := (memn f).1 hf1
    exact ⟨f, hf, g1, g2, hf2⟩
  have hfd : f.1.asset_def = AssetDefinition.native := (genuine f hfh).1 hfn
  have hsm := small f hfh hfn
  obtain ⟨-, hfk, hfu, hfl⟩ := C59_sound world f hfh
  have hflt : f.2.val < s.leaves.length := (List.getElem?_eq_some_iff.1 hfl).1
  have hflook : Wallet.lookupFromTree d.val s f.2 = .ok (lookup d.val s f.2) := by
    unfold Wallet.lookupFromTree
    rw [if_pos hflt]
    rfl
  -- the records of the asset
  have hsum : ((recipients.map (·.2)).map Fin.val).sum = (recipients.map (·.2.val)).sum := by rw [List.map_map]; rfl
  obtain ⟨t1, h1, ht1⟩ := sumU128_small (b := b) (recipients.map (·.2)) 0 (by rw [hsum]; show 0 + _ < _; omega)
  have ht1v : t1.val = (recipients.map (·.2.val)).sum := by
    rw [ht1, hsum]
    exact Nat.zero_add _
  obtain ⟨pre, post, own, g1, g2, g3, g4, g6⟩ := Wallet.collectRecords_enough (b := b) (amount := t1)
    (l := l) (cur := 0) (acc := [])
    (by
      rintro rfl
      exact some_coin perm.nil_eq.symm)
    (by show 0 + _ < _; omega) (by show _ ≤ 0 + _; omega)
  rw [List.nil_append] at g3
  have hz : (0 : Amount).val = 0 := rfl
  have g5 : total (pre.map (·.1)) ≤ total (coins.map (·.1)) := by
    rw [← htot, g2, List.map_append, total_append]
    omega
  have hheld : ∀ x ∈ pre, w.Holds x ∧ x.1.asset_def = ad := by
    intro x hx
    obtain ⟨m1, m2⟩ := (mem x).1 (by rw [g2]; exact List.mem_append_left _ hx)
    exact ⟨m1, (genuine x m1).2 m2⟩
  have hnd : ∀ x ∈ pre, x.1.isDummy = false := fun x hx => asset_not_dummy (by rw [(hheld x hx).2]; exact code.2)
  have h3 : w.findRecords b ad.code t1 = .ok (pre, own) := by
    unfold Wallet.findRecords
    rw [hl]
    exact g3
  have h4 := Wallet.prepareInputs_intro (w := w) (d := d.val) (s := s) (cred := w.credential) (key := rng.dummy_key)
    (l := pre ++ [(dummyOf rng, 0)]) (by
      intro x hx hd
      rcases List.mem_append.1 hx with hx | hx
      · exact (List.getElem?_eq_some_iff.1 (C59_sound world x (hheld x hx).1).2.2.2).1
      · rw [List.mem_singleton] at hx
        rw [hx, dummyOf_isDummy] at hd
        cases hd)
  set inputs := (pre ++ [(dummyOf rng, 0)]).map (w.inputOf d.val s w.credential rng.dummy_key) with hin
  set outputs := Wallet.payOutputs rng.blinds ad (w.everyone recipients own) with hout
  have hlen : outputs.length = (w.everyone recipients own).length := Wallet.payOutputs_length _ _ _
  have hevl : recipients.length ≤ (w.everyone recipients own).length ∧
      (w.everyone recipients own).length ≤ recipients.length + 1 := by
    unfold Wallet.everyone
    split
    · simp
    · simp
  have hilen : inputs.length = pre.length + 1 := by simp [hin]
  obtain ⟨⟨pk, vk⟩, h5⟩ := keys (inputs.length + 1) (outputs.length + 1) (by
      have := List.length_pos_of_ne_nil g1
      omega) (by
      have := perm.length_eq
      rw [g2, List.length_append] at this
      omega) (by omega) (by omega)
  have hro : inputs.map (·.ro) = pre.map (·.1) ++ [dummyOf rng] := by
    rw [hin, List.map_map, List.map_append, List.map_singleton]
    congr 1
    · refine List.map_congr_left (fun x hx => ?_)
      show (w.inputOf d.val s w.credential rng.dummy_key x).ro = _
      rw [inputOf_real w _ (hnd x hx)]
    · show [(w.inputOf d.val s w.credential rng.dummy_key (dummyOf rng, 0)).ro] = _
      rw [inputOf_dummy]
  have hnul : inputs.map nullifierOf = pre.map (ownNullifier k) ++ [dummyNullifier rng] := by
    rw [hin, List.map_map, List.map_append, List.map_singleton]
    congr 1
    · refine List.map_congr_left (fun x hx => ?_)
      show nullifierOf (w.inputOf d.val s w.credential rng.dummy_key x) = _
      rw [inputOf_real w _ (hnd x hx), ← (worldOk world).key]
      rfl
    · show [nullifierOf (w.inputOf d.val s w.credential rng.dummy_key (dummyOf rng, 0))] = _
      rw [inputOf_dummy]
      rfl
  have htin : total (inputs.map (·.ro)) = total (pre.map (·.1)) := by
    rw [hro, total_append]
    simp [total, dummyOf, RecordOpening.newDummy]
  set fi : FeeInput := ⟨f.1, lookup d.val s f.2, w.keypair⟩ with hfi
  have hfnul : nullifierOf fi.toTransferInput = ownNullifier k f := by
    rw [← (worldOk world).key]
    rfl
  have hall : (ownNullifier k f :: (pre.map (ownNullifier k) ++ [dummyNullifier rng])).Nodup := by
    rw [List.nodup_cons, List.nodup_append]
    refine ⟨?_, ?_, by simp, ?_⟩
    · intro hm
      rcases List.mem_append.1 hm with hm | hm
      · obtain ⟨x, hx, e⟩ := List.mem_map.1 hm
        have := apart.among x f (C59_sound world x (hheld x hx).1).1 (C59_sound world f hfh).1 e
        subst this
        exact code.1 (by rw [← (hheld x hx).2, hfn])
      · rw [List.mem_singleton] at hm
        exact dummy.2 f hfh hm
    · rw [List.nodup_map_iff_inj_on (by rw [g2] at nd; exact (List.nodup_append.1 nd).1)]
      intro x hx y hy e
      exact apart.among x y (C59_sound world x (hheld x hx).1).1 (C59_sound world y (hheld y hy).1).1 e
    · intro a ha e he
      rw [List.mem_singleton] at he
      obtain ⟨x, hx, rfl⟩ := List.mem_map.1 ha
      rw [he]
      exact dummy.2 x (hheld x hx).1
  have hvu : ∀ c, w.credential = some c → w.validUntil = c.expiry := by
    intro c hc
    unfold Wallet.validUntil
    rw [hc]
  have pay : AssetPayment (inputs.length + 1) (outputs.length + 1) d.val (treeRoot d.val s.leaves) w.validUntil ad inputs outputs
      fi fee := by
    refine ⟨rfl, rfl, code, freezer_has_viewer, ?_, ?_, ?_, fun o ho => payOutputs_mem ho, ?_, ?_, ?_, ?_, ?_⟩
    · exact ⟨treePath_length _ _ _, hfd, hfu, by rw [hfi, (worldOk world).key]; exact hfk,
        ⟨rfl, treePath_root (worldOk world).room hfl⟩, hff⟩
    · obtain ⟨x, pre', hp⟩ := List.exists_cons_of_ne_nil g1
      have hx : x ∈ pre := by rw [hp]; exact List.mem_cons_self
      refine ⟨w.inputOf d.val s w.credential rng.dummy_key x, by rw [hin]; exact List.mem_map_of_mem (List.mem_append_left _ hx), ?_⟩
      rw [inputOf_real w _ (hnd x hx)]
      exact (hheld x hx).2
    · intro i hi
      have : i.ro ∈ inputs.map (·.ro) := List.mem_map_of_mem hi
      rw [hro] at this
      rcases List.mem_append.1 this with hm | hm
      · obtain ⟨x, hx, he⟩ := List.mem_map.1 hm
        rw [← he]
        exact .inl (hheld x hx).2
      · rw [List.mem_singleton] at hm
        rw [hm]
        exact .inr rfl
    · intro i hi
      rw [hin] at hi
      obtain ⟨x, hx, rfl⟩ := List.mem_map.1 hi
      rcases List.mem_append.1 hx with hx | hx
      · exact held_spendable world (hheld x hx).1 (hnd x hx) _ _
      · rw [List.mem_singleton] at hx
        rw [hx]
        exact dummy_spendable _ _ _
    · rw [hnul, hfnul]
      exact hall
    · rw [htin, hout, payOutputs_total, everyone_sum]
      omega
    · rw [htin]
      show f.1.amount.val + _ < _
      omega
    · intro hp i hi hiad
      obtain ⟨c, hc, hver, hlen8⟩ := creds hp
      rw [hin] at hi
      obtain ⟨x, hx, rfl⟩ := List.mem_map.1 hi
      rcases List.mem_append.1 hx with hx | hx
      · rw [inputOf_real w _ (hnd x hx)]
        exact ⟨c, hc, by rw [hvu c hc]; exact hver, hlen8⟩
      · rw [List.mem_singleton] at hx
        rw [hx, inputOf_dummy] at hiad
        exact absurd (show ad.code = dummyCode by rw [← hiad]; rfl) code.2
  have limits : Limits w.validUntil (fi.toTransferInput :: inputs) ad := by
    refine ⟨window, ?_, ?_⟩
    · intro i hi hp c hc
      rcases List.mem_cons.1 hi with rfl | hi
      · cases hc
      · rw [hin] at hi
        obtain ⟨x, hx, rfl⟩ := List.mem_map.1 hi
        rcases List.mem_append.1 hx with hx | hx
        · rw [inputOf_real w _ (hnd x hx)] at hc
          rw [hvu c hc]
          omega
        · rw [List.mem_singleton] at hx
          rw [hx, inputOf_dummy] at hc
          cases hc
    · rcases viewed with hv | ⟨hv1, hv2⟩
      · exact .inl hv
      · by_cases hm : moved (fi.toTransferInput :: inputs) ≤ ad.policy.reveal_threshold.val
        · exact .inr (.inl ⟨hm, by omega⟩)
        · exact .inr (.inr ⟨by omega, .inl hv1⟩)
  obtain ⟨info, chg, n, sk, new, gen, -, p2, p3, p4, p5⟩ := C55_asset_partial complete h5 pay limits b rng.chg_blind rng.note []
  obtain ⟨ms, h7⟩ := Wallet.payMemos_intro (memos := rng.memos) (l := outputs) (i := 0) (by
    intro j ro hj
    rw [Nat.zero_add]
    exact encrypts own j ro (payOutputs_get.1 hj))
  have gen' := generateNonNative_generate gen
  obtain ⟨wit, pub, tg⟩ := TransferNote.generate_ok.1 gen'
  have hms : ms ≠ [] := by
    have := (Wallet.payMemos_ok h7).1
    rintro rfl
    rw [List.length_nil, hlen] at this
    have := List.length_pos_of_ne_nil recip
    omega
  obtain ⟨sig, q1, q2⟩ := C36_sign_verify sk (.transfer n) ms
    (by show n.aux_info.txn_memo_ver_key = _; rw [tg.ver_key, tg.sign_key]) hms
  refine ⟨{ (w.markUnconfirmedSpent (w.nullify f) f.1 f.2).markAll (pre ++ [(dummyOf rng, 0)]) with
      changes := setInsert chg ((w.markUnconfirmedSpent (w.nullify f) f.1 f.2).markAll (pre ++ [(dummyOf rng, 0)])).changes },
    n, ms, sig, ?_, p2, q2, fun time ht => ?_⟩
  · unfold Wallet.spendNonNative
    simp only [bind_ok_iff, ensure_ok_iff, decide_eq_true_eq]
    refine ⟨(), ?_, _, h1, _, hfr, _, hflook, (info, chg), by rw [new]; rfl, _, h3, _, h4, (pk, vk), ?_, _, gen, _, h7, _, q1, rfl⟩
    · rintro rfl
      exact code.1 rfl
    · rw [show Wallet.payOutputs rng.blinds ad (if 0 < own then recipients ++ [(w.pubKey, own)] else recipients) = outputs from rfl,
        h5]
      rfl
  · have hv := TransferNote.verify_ok.1 (p5 time ht)
    have := validate_made complete batch (d := d) (s := s) (ts := [⟨.transfer n, _, _⟩]) (time := time) (by simp)
      (by
        intro t ht
        rw [List.mem_singleton] at ht
        rw [ht]
        exact Made.transfer h5 gen')
      (by
        intro t ht'
        rw [List.mem_singleton] at ht'
        rw [ht']
        show time ≤ n.aux_info.valid_until
        rw [tg.note_valid]
        exact ht)
      (by
        intro t ht
        rw [List.mem_singleton] at ht
        rw [ht]
        show n.aux_info.merkle_root ∈ _
        rw [← hv.1]
        exact (worldOk world).root)
      (by
        rw [List.flatMap_cons, List.flatMap_nil, List.append_nil]
        show n.inputs_nullifiers.Nodup
        rw [p3, List.map_cons, hfnul, hnul]
        exact hall)
      (by
        intro t ht
        rw [List.mem_singleton] at ht
        rw [ht]
        show ∀ x ∈ n.inputs_nullifiers, _
        rw [p3, List.map_cons, hfnul, hnul]
        intro x hx
        rcases List.mem_cons.1 hx with rfl | hx
        · exact C59_fresh world apart f hfh
        · rcases List.mem_append.1 hx with hx | hx
          · obtain ⟨y, hy, rfl⟩ := List.mem_map.1 hx
            exact C59_fresh world apart y (hheld y hy).1
          · rw [List.mem_singleton] at hx
            rw [hx]
            exact dummy.1)
    exact this

/-- **The payment arrives**, and so does what is left of the asset, at the sender. -/
theorem C62_arrives {w0 : Wallet} {coin : RecordOpening × U64} {coins : List (RecordOpening × U64)} {own : Amount}
    {chg : RecordOpening} (pay : AssetSent k w0 rng ad recipients fee coin coins own chg note memos)
    {d' : Fin 256} {b' : Build} {k' : UserKeyPair} {h' : List Seen} {s' : LedgerState} {w' : Wallet}
    (world : World d' b' k' h' s' w') {pos j : ℕ} {amount : Amount} (there : At h' (.transfer note) memos pos)
    (mine : recipients[j]? = some (k'.pubKey, amount) ∨
      j = recipients.length ∧ k'.pubKey = w0.pubKey ∧ 0 < own ∧ amount = own) :
    ∃ ro uid, ro.amount = amount ∧ ro.asset_def = ad ∧ ro.pub_key = k'.pubKey ∧ (uid : U64).val = pos + 1 + j ∧
      (w'.Holds (ro, uid) ∨ ownNullifier k' (ro, uid) ∈ s'.nullifiers) := by
  have hp : paid rng ad (w0.everyone recipients own) j ⟨amount, ad, k'.pubKey, .unfrozen, rng.blinds j⟩ := by
    refine ⟨(k'.pubKey, amount), ?_, rfl⟩
    unfold Wallet.everyone
    rcases mine with hm | ⟨rfl, hk, ho, rfl⟩
    · split
      · rw [List.getElem?_append_left (List.getElem?_eq_some_iff.1 hm).1]
        exact hm
      · exact hm
    · rw [if_pos ho, hk]
      simp
  obtain ⟨h1, c, h2, h3⟩ := pay.rest j _ hp
  have hin := there.inside
  have hlt := (List.getElem?_eq_some_iff.1 h1).1
  have hsz := (worldOk world).size
  have hsm := (worldOk world).small
  have hlen : (TransactionNote.transfer note).outputCommitments.length = note.output_commitments.length := rfl
  exact ⟨_, ⟨pos + 1 + j, by omega⟩, rfl, rfl, rfl, rfl,
    C59_memo world there h1 h2 (C35_round_trip _ _ _ _ _ rfl h3) rfl rfl⟩

/-- **The payment is settled**: the records it was paid with are gone, and the change of the fee has come back. -/
theorem C62_settles {w0 : Wallet} {coin : RecordOpening × U64} {coins : List (RecordOpening × U64)} {own : Amount}
    {chg : RecordOpening} {after : List Seen} (pay : AssetSent k w0 rng ad recipients fee coin coins own chg note memos)
    (world : World d b k (h ++ (coin :: coins).map .spending ++ .expecting chg :: after) s w)
    (apart : Apart k (h ++ (coin :: coins).map .spending ++ .expecting chg :: after))
    (no_twin : ∀ chg', .expecting chg' ∈ h ++ (coin :: coins).map .spending ++ .expecting chg :: after →
      chg'.commitment = chg.commitment → chg' = chg)
    {txns : List (TransactionNote × List E.AeadCt)} {blind : F} {who : UserPubKey} {time : U64}
    (later : .block txns blind who time ∈ after) (there : (.transfer note, memos) ∈ txns) :
    (∀ x ∈ coin :: coins, ¬ w.Holds x) ∧ ∃ uid, w.Holds (chg, uid) ∨ ownNullifier k (chg, uid) ∈ s.nullifiers := by
  refine ⟨fun x hx => ?_, ?_⟩
  · obtain ⟨l1, l2, rfl⟩ := List.append_of_mem later
    have e : h ++ (coin :: coins).map .spending ++ .expecting chg :: (l1 ++ .block txns blind who time :: l2) =
        (h ++ (coin :: coins).map .spending ++ .expecting chg :: l1) ++ .block txns blind who time :: l2 := by simp
    rw [e] at world apart
    refine C59_gone world apart x there ?_
    show _ ∈ note.inputs_nullifiers
    rw [pay.nullifiers]
    exact List.mem_append_left _ (List.mem_map_of_mem hx)
  · obtain ⟨t, m, pos, uid, -, -, -, h4⟩ := C59_change world rfl no_twin later there pay.first
    exact ⟨uid, h4⟩

/-- **A wallet whose credential has expired cannot pay in any asset but the native one**, whether or not the policy of the
asset asks for a credential: its payments are made, and refused by every validator. -/
theorem C62_expired_false (batch : SnarkBatch) (world : World d b k h s w) (code : ad.code ≠ nativeCode ∧ ad.code ≠ dummyCode)
    {c : ExpirableCredential} (cred : w.credential = some c)
    (ok : w.spendNonNative b d s rng ad recipients fee = .ok (w', note, memos, sig)) {time : U64} (expired : c.expiry < time)
    (d' : Fin 256) (s' : LedgerState) {txns : List TransactionNote} (mem : .transfer note ∈ txns) :
    validateTxnsBatch d' s' txns time ≠ .ok () := by
  intro hv
  obtain ⟨coin, coins, own, chg, pay, -⟩ := C62_payment world code ok
  obtain ⟨-, -, -, hc⟩ := (C51_any batch (List.ne_nil_of_mem mem)).1 hv
  obtain ⟨key, -, x, hx, -⟩ := hc _ mem
  simp only [TransactionNote.publicScalars, bind_ok_iff] at hx
  obtain ⟨a, ha, -⟩ := hx
  have ht := (TransferNote.checkInstance_ok.1 ha).2.1
  rw [pay.valid] at ht
  unfold Wallet.validUntil at ht
  rw [cred] at ht
  exact absurd expired (not_lt.2 ht)

/-- **A wallet whose credential is valid for long** (from 2^20 on) **cannot pay in any asset but the native one** either. -/
theorem C62_far_false {c : ExpirableCredential} (cred : w.credential = some c) (far : 2 ^ 20 ≤ c.expiry.val) (r) :
    w.spendNonNative b d s rng ad recipients fee ≠ .ok r := by
  obtain ⟨w', note, memos, sig⟩ := r
  intro ok
  obtain ⟨sk, chg, f, x, pre, post, shelf, own, inputs, info, keys, sp⟩ := Wallet.spendNonNative_ok ok
  have := C38_window (generateNonNative_generate sp.gen)
  unfold Wallet.validUntil at this
  rw [cred] at this
  exact absurd far (not_le.2 this)

/-- **The wallet cannot pay twice in a row** in the same asset, or with the same fee: the second note spends a record that
the first one spends. -/
theorem C62_twice_false (world : World d b k h s w) (code : ad.code ≠ nativeCode ∧ ad.code ≠ dummyCode)
    {ad' : AssetDefinition} (code' : ad'.code ≠ nativeCode ∧ ad'.code ≠ dummyCode)
    (first : w.spendNonNative b d s rng ad recipients fee = .ok (w', note, memos, sig)) {s2 : LedgerState}
    (second : w'.spendNonNative b d s2 rng' ad' recipients' fee' = .ok (w'', note', memos', sig'))
    (same : ad'.code = ad.code ∨ fee' = fee) :
    (∃ x ∈ note.inputs_nullifiers, x ∈ note'.inputs_nullifiers) ∧
    (∀ (d' : Fin 256) (s' : LedgerState) (time : U64) (l1 l2 l3 : List TransactionNote),
      validateTxnsBatch d' s' (l1 ++ .transfer note :: l2 ++ .transfer note' :: l3) time ≠ .ok ()) ∧
    ∀ (d' : Fin 256) (s1 s1' : LedgerState) (block : MockBlock) (txns : List TransactionNote) (time : U64),
      .transfer note ∈ block.txns → s1.insertBlock d'.val block = .ok s1' → .transfer note' ∈ txns →
      validateTxnsBatch d' s1' txns time ≠ .ok () := by
  obtain ⟨sk, chg, f, x, pre, post, shelf, own, inputs, info, keys, sp⟩ := Wallet.spendNonNative_ok first
  obtain ⟨sk', chg', f', x', pre', post', shelf', own', inputs', info', keys', sp'⟩ := Wallet.spendNonNative_ok second
  have hun : w'.unspent = w.unspent := by
    rw [sp.wallet]
    exact ((w.markUnconfirmedSpent (w.nullify f) f.1 f.2).markAll_rest (x :: pre)).1
  have hkey : w'.keypair = k := by
    rw [sp.wallet, ← (worldOk world).key]
    exact ((w.markUnconfirmedSpent (w.nullify f) f.1 f.2).markAll_rest (x :: pre)).2.1
  have hnull : ∀ {s0 : LedgerState} {w0 w1 : Wallet} {rng0 : PaymentRand} {ad0 : AssetDefinition}
      {rec0 : List (UserPubKey × Amount)} {fee0 : Amount} {note0 : TransferNote} {memos0 : List E.AeadCt} {sig0 : E.Sig}
      {sk0 : Fr} {chg0 : RecordOpening} {f0 y : RecordOpening × U64} {pre0 post0 shelf0 : List (RecordOpening × U64)}
      {own0 : Amount} {inputs0 : List TransferNoteInput} {info0 : TxnFeeInfo}
      {keys0 : TransferProvingKey × TransferVerifyingKey}, w0.unspent = w.unspent → w0.keypair = k → ad0.code ≠ dummyCode →
      Wallet.AssetSpend b w0 d s0 rng0 ad0 rec0 fee0 w1 note0 memos0 sig0 sk0 chg0 f0 y pre0 post0 shelf0 own0 inputs0 info0
        keys0 → ownNullifier k f0 ∈ note0.inputs_nullifiers ∧ ownNullifier k y ∈ note0.inputs_nullifiers := by
    intro s0 w0 w1 rng0 ad0 rec0 fee0 note0 memos0 sig0 sk0 chg0 f0 y pre0 post0 shelf0 own0 inputs0 info0 keys0 h1 h2 h3 sp0
    have hsh := sp0.shelf_eq
    rw [h1] at hsh
    have hy := ((shelf_holds world ad0.code hsh).2 y).1 (by simp)
    have hnd : y.1.isDummy = false := asset_not_dummy (by rw [hy.2]; exact h3)
    obtain ⟨-, -, -, -, -, -, c7, -⟩ := C23_change _ _ _ _ _ sp0.fee_ok
    rw [transfer_nullifiers (generateNonNative_generate sp0.gen), c7, sp0.inputs_eq, List.cons_append, List.map_cons,
      List.map_cons, List.map_cons, inputOf_real w0 _ hnd, h2]
    exact ⟨List.mem_cons_self, List.mem_cons_of_mem _ List.mem_cons_self⟩
  obtain ⟨a1, a2⟩ := hnull rfl (worldOk world).key code.2 sp
  obtain ⟨b1, b2⟩ := hnull hun hkey code'.2 sp'
  obtain ⟨z, n1, n2⟩ : ∃ x ∈ note.inputs_nullifiers, x ∈ note'.inputs_nullifiers := by
    rcases same with e | e
    · have h1 := sp'.shelf_eq
      rw [hun, e, sp.shelf_eq] at h1
      simp only [List.cons_append, Option.some.injEq, List.cons.injEq] at h1
      rw [← h1.1] at b2
      exact ⟨_, a2, b2⟩
    · have h1 := sp'.fee_find
      have h2 := sp.fee_find
      unfold Wallet.findRecordForFee at h1 h2
      rw [hun, e, h2] at h1
      rw [← Except.ok.inj h1] at b1
      exact ⟨_, a1, b1⟩
  refine ⟨⟨z, n1, n2⟩, fun d' s' time l1 l2 l3 hv => ?_, fun d' s1 s1' block txns time hm hi ht hv => ?_⟩
  · obtain ⟨-, hnd, -⟩ := validateTxnsBatch_ok hv
    rw [List.flatMap_append, List.flatMap_append, List.flatMap_cons, List.flatMap_cons] at hnd
    have := (List.nodup_append.1 hnd).2.2
    exact this _ (List.mem_append_right _ (List.mem_append_left _ n1)) _ (List.mem_append_left _ n2) rfl
  · obtain ⟨-, -, hf, -⟩ := validateTxnsBatch_ok hv
    obtain ⟨fee, -, -, -, hn, -⟩ := LedgerState.insertBlock_ok hi
    exact hf _ (List.mem_flatMap.2 ⟨_, ht, n2⟩) ((hn _).2 (.inl (List.mem_flatMap.2 ⟨_, hm, n1⟩)))

end Cap

namespace Cap.Examples

open Toy Spec

/-! Alice has a native coin worth 100 and 50 of an asset with a viewer, a freezer and a credential issuer, and a credential
valid until 1000.  She pays 20 of the asset to Bob, with a fee of 3. -/

/-- Alice's wallet when she has been handed her records and her credential -/
def walletC : Wallet := (((Wallet.new alice).addRecordOpening feeRec 0).addRecordOpening assetRec 1).setCredential cred

/-- what Alice saw -/
def seenC : List Seen := seen0 ++ [.told feeRec 0, .told assetRec 1]

theorem worldC : World 2 .debug alice seenC led0 walletC := by
  have h := World.credential ((worldA.told (ro := assetRec) (uid := 1) rfl rfl rfl (by simp [led0]))) cred
  rw [List.append_assoc] at h
  exact h

theorem walletC_holds (x : RecordOpening × U64) : walletC.Holds x ↔ x = (feeRec, 0) ∨ x = (assetRec, 1) := by
  have : walletC.Holds x ↔ (walletA.addRecordOpening assetRec 1).Holds x := Iff.rfl
  rw [this, Wallet.holds_add, walletA_holds, or_comm]

theorem two_nullifiers :
    (([(feeRec, (0 : U64)), (assetRec, 1)] : List (RecordOpening × U64)).map (ownNullifier alice)).Nodup := by decide +kernel

/-- before there is a block, Alice knows of these records only -/
theorem two_only {more : List Seen} (hm : ∀ e ∈ more, (∃ x, e = .spending x) ∨ ∃ c, e = .expecting c) :
    Apart alice (seenC ++ more) := by
  have hat : ∀ {t : TransactionNote} {memos : List Toy.E.AeadCt} {pos : ℕ}, ¬ At (seenC ++ more) t memos pos := by
    rintro t memos pos ⟨before, txns, blind, who, time, after, -, -, h1, -⟩
    have : Seen.block txns blind who time ∈ seenC ++ more := by rw [h1]; simp
    rcases List.mem_append.1 this with h | h
    · simp [seenC, seen0] at h
    · rcases hm _ h with ⟨x, h⟩ | ⟨c, h⟩ <;> cases h
  have hr : ∀ x, Received alice (seenC ++ more) x → x ∈ [(feeRec, (0 : U64)), (assetRec, 1)] := by
    intro x h
    cases h with
    | told mem =>
      rcases List.mem_append.1 mem with h | h
      · simp only [seenC, seen0, List.cons_append, List.nil_append, List.mem_cons, List.not_mem_nil, or_false, reduceCtorEq,
          false_or, Seen.told.injEq] at h
        rcases h with ⟨rfl, rfl⟩ | ⟨rfl, rfl⟩ <;> simp
      · rcases hm _ h with ⟨x, h⟩ | ⟨c, h⟩ <;> cases h
    | memo a => exact absurd a hat
    | change _ a => exact absurd a hat
  exact ⟨fun x y hx hy hn => List.inj_on_of_nodup_map two_nullifiers (hr x hx) (hr y hy) hn,
    fun x _ t memos pos a => absurd a hat⟩

theorem dummy_apart2 : ownNullifier alice (assetRec, 1) ≠ dummyNullifier payRng := by decide +kernel

theorem cred_ok : cred.verify cred.expiry = .ok () := by decide +kernel
theorem asset_code : asset.code ≠ nativeCode ∧ asset.code ≠ dummyCode := by decide +kernel
theorem native_code_ne : feeRec.asset_def.code ≠ asset.code := by decide +kernel

/-- Alice can pay any amount up to 50, from any wallet with the same records and credential. -/
theorem alicePaysAsset {h : List Seen} {w : Wallet} (world : World 2 .debug alice h led0 w) (apart : Apart alice h)
    (hold : ∀ x, w.Holds x ↔ x = (feeRec, 0) ∨ x = (assetRec, 1)) (hc : w.credential = some cred) (a : Amount)
    (ha : a.val ≤ 50) :
    ∃ w' note memos sig, w.spendNonNative .debug 2 led0 payRng asset [(bob.pubKey, a)] 3 = .ok (w', note, memos, sig) ∧
      note.aux_info.fee = 3 ∧ TransactionNote.verifyReceiverMemosSignature (.transfer note) memos sig = .ok () ∧
      ∀ time : U64, time ≤ 1000 → validateTxnsBatch 2 led0 [.transfer note] time = .ok () := by
  have hvu : w.validUntil = 1000 := by
    unfold Wallet.validUntil
    rw [hc]
    rfl
  have hpk : w.keypair = alice := (worldOk world).key
  have := C62_pays_partial (d := 2) (ad := asset) (recipients := [(bob.pubKey, a)]) (fee := 3) (rng := payRng) Toy.complete
    Toy.batch world apart asset_code (fun _ => by decide +kernel) (coins := [(assetRec, 1)]) ?_ (by simp) ?_ (by simp) ?_ ?_
    ?_ (by simp) ?_ ?_ ?_ ?_ ?_ ?_
  · rwa [hvu] at this
  · intro x hx
    rcases (hold x).1 hx with rfl | rfl
    · exact ⟨fun _ => rfl, fun e => absurd e native_code_ne⟩
    · exact ⟨fun e => absurd e asset_code.1, fun _ => rfl⟩
  · intro x
    rw [List.mem_singleton, hold]
    refine ⟨fun h => ⟨.inr h, by rw [h]; rfl⟩, fun h => ?_⟩
    rcases h.1 with rfl | rfl
    · exact absurd h.2 native_code_ne
    · rfl
  · show a.val + 0 ≤ 50 + 0
    omega
  · exact ⟨_, (hold _).2 (.inl rfl), rfl, by decide⟩
  · intro x hx e
    rcases (hold x).1 hx with rfl | rfl
    · show (100 : ℕ) + (50 + 0) < 2 ^ 127
      norm_num
    · exact absurd e asset_code.1
  · rw [hvu]
    decide
  · exact fun _ => ⟨cred, hc, cred_ok, rfl⟩
  · exact .inr ⟨rfl, by decide +kernel⟩
  · intro n m h1 h2 h3 h4
    simp only [List.length_cons, List.length_nil] at h2 h3 h4
    obtain rfl : n = 3 := by omega
    rcases (by omega : m = 2 ∨ m = 3) with rfl | rfl
    · exact ⟨_, rfl⟩
    · exact ⟨_, rfl⟩
  · rintro own j ro ⟨r, hr, rfl⟩
    have hw : w.pubKey = alice.pubKey := by
      show w.keypair.pubKey = _
      rw [hpk]
    have : r.1 = bob.pubKey ∨ r.1 = alice.pubKey := by
      have := List.mem_of_getElem? hr
      unfold Wallet.everyone at this
      rw [hw] at this
      split at this <;> simp only [List.cons_append, List.nil_append, List.mem_cons, List.not_mem_nil, or_false] at this
      · rcases this with rfl | rfl
        · exact .inl rfl
        · exact .inr rfl
      · exact .inl (by rw [this])
    obtain ⟨p, a'⟩ := r
    rcases this with e | e
    · dsimp only at e
      subst e
      exact ⟨_, rfl⟩
    · dsimp only at e
      subst e
      exact ⟨_, rfl⟩
  · refine ⟨by simp [led0], fun x hx => ?_⟩
    rcases (hold x).1 hx with rfl | rfl
    · exact dummy_apart
    · exact dummy_apart2

/-- The payment is accepted until her credential expires, and never after; a second one is made too, and they exclude each
other. -/
example : ∃ w' note memos sig w'' note' memos' sig',
    walletC.spendNonNative .debug 2 led0 payRng asset [(bob.pubKey, 20)] 3 = .ok (w', note, memos, sig) ∧
    w'.spendNonNative .debug 2 led0 payRng asset [(bob.pubKey, 10)] 3 = .ok (w'', note', memos', sig') ∧
    validateTxnsBatch 2 led0 [.transfer note] 1000 = .ok () ∧ validateTxnsBatch 2 led0 [.transfer note'] 1000 = .ok () ∧
    validateTxnsBatch 2 led0 [.transfer note] 1001 ≠ .ok () ∧
    validateTxnsBatch 2 led0 [.transfer note, .transfer note'] 1000 ≠ .ok () := by
  obtain ⟨w', note, memos, sig, h1, -, -, h2⟩ := alicePaysAsset worldC
    (by simpa using two_only (more := []) (by simp)) walletC_holds rfl 20 (by decide)
  obtain ⟨coin, coins, own, chg, -, -, h3, h4⟩ := C62_payment worldC asset_code h1
  obtain ⟨sk, c, f, x, pre, post, shelf, own', inputs, info, keys, sp⟩ := Wallet.spendNonNative_ok h1
  obtain ⟨w'', note', memos', sig', h5, -, -, h6⟩ := alicePaysAsset h3
    (by
      rw [List.append_assoc]
      refine two_only (fun e he => ?_)
      rcases List.mem_append.1 he with he | he
      · obtain ⟨x, -, rfl⟩ := List.mem_map.1 he
        exact .inl ⟨x, rfl⟩
      · rw [List.mem_singleton] at he
        exact .inr ⟨_, he⟩)
    (fun x => (h4 x).trans (walletC_holds x))
    (by
      rw [sp.wallet]
      exact (Wallet.markAll_rest _ (x :: pre)).2.2.2) 10 (by decide)
  exact ⟨w', note, memos, sig, w'', note', memos', sig', h1, h5, h2 _ (le_refl _), h6 _ (le_refl _),
    C62_expired_false Toy.batch worldC asset_code rfl h1 (by decide) 2 led0 (List.mem_singleton.2 rfl),
    (C62_twice_false worldC asset_code asset_code h1 h5 (.inl rfl)).2.1 2 led0 1000 [] [] []⟩

/-- a credential that is valid for too long -/
example : 2 ^ 20 ≤ ({ cred with expiry := 2000000 } : ExpirableCredential).expiry.val := by decide

/-- the change of the fee, what Bob gets, and what is left for Alice -/
def chgC : RecordOpening := ⟨97, AssetDefinition.native, alice.pubKey, .unfrozen, (90 : ZMod p)⟩
def bobs20 : RecordOpening := ⟨20, asset, bob.pubKey, .unfrozen, (92 : ZMod p)⟩
def alices30 : RecordOpening := ⟨30, asset, alice.pubKey, .unfrozen, (93 : ZMod p)⟩

theorem bobs20_alice : (match ReceiverMemo.fromRo 0 bobs20 [] with
    | .ok c => isOk (ReceiverMemo.decrypt c alice bobs20.commitment [])
    | .error _ => true) = false := by decide +kernel
theorem four_nullifiers : (([(feeRec, (0 : U64)), (assetRec, 1), (chgC, 2), (alices30, 4)] :
    List (RecordOpening × U64)).map (ownNullifier alice)).Nodup := by decide +kernel

/-- what the payment is -/
theorem assetPayment : ∃ note memos w',
    AssetSent alice walletC payRng asset [(bob.pubKey, 20)] 3 (feeRec, 0) [(assetRec, 1)] 30 chgC note memos ∧
    World 2 .debug alice (seenC ++ [(feeRec, 0), (assetRec, 1)].map .spending ++ [.expecting chgC]) led0 w' ∧
    validateTxnsBatch 2 led0 [.transfer note] 5 = .ok () := by
  obtain ⟨w', note, memos, sig, h1, -, -, h2⟩ := alicePaysAsset worldC
    (by simpa using two_only (more := []) (by simp)) walletC_holds rfl 20 (by decide)
  obtain ⟨coin, coins, own, chg, pay, -, hw, -⟩ := C62_payment worldC asset_code h1
  have hf : coin = (feeRec, 0) := by
    rcases (walletC_holds coin).1 pay.fee_coin.1 with e | e
    · exact e
    · have := pay.fee_coin.2
      rw [e] at this
      exact absurd (congrArg AssetDefinition.code this) asset_code.1
  have hc : coins = [(assetRec, 1)] := by
    have hall : ∀ x ∈ coins, x = (assetRec, 1) := fun x hx => by
      rcases (walletC_holds x).1 (pay.held x hx).1 with e | e
      · have := (pay.held x hx).2
        rw [e] at this
        exact absurd (congrArg AssetDefinition.code this) native_code_ne
      · exact e
    have := pay.once
    match coins, pay.some_coin with
    | [x], _ => rw [hall x List.mem_cons_self]
    | x :: y :: l, _ =>
      exfalso
      rw [hall x List.mem_cons_self, hall y (by simp), List.nodup_cons] at this
      exact this.1 List.mem_cons_self
  subst hf hc
  have hv := pay.value
  change 50 + 0 = 20 + 0 + own.val at hv
  obtain rfl : own = 30 := Fin.ext (show own.val = 30 by omega)
  have hg : chg = chgC := by
    have hv := pay.fee_value
    change 100 = chg.amount.val + 3 at hv
    have ha : chg.amount = 97 := Fin.ext (show chg.amount.val = 97 by omega)
    obtain ⟨c1, c2, c3, c4⟩ := pay.change
    obtain ⟨a, ad, pk, ff, bl⟩ := chg
    dsimp only at ha c1 c2 c3 c4
    subst ha c1 c2 c3 c4
    rfl
  subst hg
  exact ⟨note, memos, w', pay, hw, h2 5 (by decide)⟩

theorem three_out {note : TransferNote} (h : note.output_commitments.length = 3) :
    ∃ s', led0.insertBlock 2 ⟨[.transfer note], (47 : ZMod p), bob.pubKey⟩ = .ok s' := by
  have hins := (C52_partial (d := 2) (b := ⟨[.transfer note], (47 : ZMod p), bob.pubKey⟩) (s := led0)
    (show Room 2 led0 0 from ⟨by decide, by decide⟩)).1.2 ⟨by
      show Room 2 led0 ((note.output_commitments.length + 0) + 1)
      rw [h]
      exact ⟨by decide, by decide⟩, by simp⟩
  exact ⟨_, C52_same.2 (Prod.ext rfl hins)⟩

/-- After the block with the payment Bob's wallet has 20 of the asset at position 3, and Alice's the other 30 at position
4; her old records are gone, and the change of the fee is back. -/
example : ∃ note memos s' wB wA, validateTxnsBatch 2 led0 [.transfer note] 5 = .ok () ∧
    World 2 .debug bob (seen0 ++ [.block [(.transfer note, memos)] (47 : ZMod p) bob.pubKey 5]) s' wB ∧
    World 2 .debug alice (seenC ++ [(feeRec, 0), (assetRec, 1)].map .spending ++
      .expecting chgC :: [.block [(.transfer note, memos)] (47 : ZMod p) bob.pubKey 5]) s' wA ∧
    (∃ ro, ro.amount = 20 ∧ ro.asset_def = asset ∧
      (wB.Holds (ro, 3) ∨ ownNullifier bob (ro, 3) ∈ s'.nullifiers)) ∧
    (∃ ro, ro.amount = 30 ∧ ro.asset_def = asset ∧
      (wA.Holds (ro, 4) ∨ ownNullifier alice (ro, 4) ∈ s'.nullifiers)) ∧
    (∀ x ∈ [(feeRec, 0), (assetRec, 1)], ¬ wA.Holds x) ∧
      ∃ uid, wA.Holds (chgC, uid) ∨ ownNullifier alice (chgC, uid) ∈ s'.nullifiers := by
  obtain ⟨note, memos, w', pay, hw, valid⟩ := assetPayment
  obtain ⟨s', hs'⟩ := three_out pay.lengths.1
  have lens : ∀ t ∈ [(TransactionNote.transfer note, memos)], t.1.outputCommitments.length = t.2.length + 1 := by
    intro t ht
    obtain rfl := List.mem_singleton.1 ht
    show note.output_commitments.length = memos.length + 1
    rw [pay.lengths.1, pay.lengths.2]
  obtain ⟨wB, -, -, hB⟩ := C59_scans (uid := 2) (start_world bob) (txns := [(.transfer note, memos)]) (time := 5) valid hs'
    rfl lens
  obtain ⟨wA, -, -, hA⟩ := C59_scans (uid := 2) hw (txns := [(.transfer note, memos)]) (time := 5) valid hs' rfl lens
  have hA : World 2 .debug alice (seenC ++ [(feeRec, 0), (assetRec, 1)].map .spending ++
      .expecting chgC :: [.block [(.transfer note, memos)] (47 : ZMod p) bob.pubKey 5]) s' wA := by
    simpa only [List.append_assoc, List.cons_append, List.nil_append] using hA
  refine ⟨note, memos, s', wB, wA, valid, hB, hA, ?_, ?_, ?_⟩
  · obtain ⟨ro, uid, q1, q2, -, q4, q5⟩ := C62_arrives pay hB (pos := 2) (j := 0) (amount := 20)
      ⟨seen0, [(.transfer note, memos)], _, _, _, [], [], [], rfl, rfl, rfl⟩ (.inl rfl)
    obtain rfl : uid = 3 := Fin.ext q4
    exact ⟨ro, q1, q2, q5⟩
  · obtain ⟨ro, uid, q1, q2, -, q4, q5⟩ := C62_arrives pay hA (pos := 2) (j := 1) (amount := 30)
      ⟨seenC ++ [(feeRec, 0), (assetRec, 1)].map .spending ++ [.expecting chgC], [(.transfer note, memos)], _, _, _, [], [], [],
        List.append_cons _ _ _, rfl, rfl⟩
      (.inr ⟨rfl, rfl, by decide, rfl⟩)
    obtain rfl : uid = 4 := Fin.ext q4
    exact ⟨ro, q1, q2, q5⟩
  · have hat : ∀ {t : TransactionNote} {m : List Toy.E.AeadCt} {pos : ℕ},
        At (seenC ++ [(feeRec, 0), (assetRec, 1)].map .spending ++
          .expecting chgC :: [.block [(.transfer note, memos)] (47 : ZMod p) bob.pubKey 5]) t m pos →
        t = .transfer note ∧ m = memos ∧ pos = 2 := by
      intro t m pos a
      rw [List.append_cons] at a
      rcases a.cases with a | ⟨txns, blind, who, time, n, h1, h2, rfl⟩
      · exfalso
        obtain ⟨before, txns, blind, who, time, after, -, -, h1, -⟩ := a
        have : Seen.block txns blind who time ∈
          seenC ++ [(feeRec, 0), (assetRec, 1)].map .spending ++ [.expecting chgC] := by rw [h1]; simp
        simp [seenC, seen0] at this
      · cases h1
        rcases h2.cases with ⟨h3, h4⟩ | ⟨m, -, h3⟩
        · cases h3
          exact ⟨rfl, rfl, by rw [h4]; rfl⟩
        · exact (nomatch h3.mem)
    have expects : ∀ {c : RecordOpening}, .expecting c ∈ seenC ++ [(feeRec, 0), (assetRec, 1)].map .spending ++
        .expecting chgC :: [.block [(.transfer note, memos)] (47 : ZMod p) bob.pubKey 5] → c = chgC := by
      intro c hc
      rcases List.mem_append.1 hc with hc | hc
      · simp [seenC, seen0] at hc
      · rcases List.mem_cons.1 hc with hc | hc
        · cases hc
          rfl
        · simp at hc
    have hr : ∀ x, Received alice (seenC ++ [(feeRec, 0), (assetRec, 1)].map .spending ++
        .expecting chgC :: [.block [(.transfer note, memos)] (47 : ZMod p) bob.pubKey 5]) x →
        x ∈ [(feeRec, (0 : U64)), (assetRec, 1), (chgC, 2), (alices30, 4)] := by
      intro x hx
      cases hx with
      | told mem =>
        simp only [seenC, seen0, List.cons_append, List.nil_append, List.mem_cons, List.not_mem_nil, or_false, reduceCtorEq,
          false_or, Seen.told.injEq, List.map_cons, List.map_nil] at mem
        rcases mem with ⟨rfl, rfl⟩ | ⟨rfl, rfl⟩ <;> simp
      | memo a o m op p =>
        rename_i t ms pos j rc c ro uid
        obtain ⟨e1, e2, e3⟩ := hat a
        rw [e1] at o
        rw [e2] at m
        have hj : j = 0 ∨ j = 1 := by
          have := (List.getElem?_eq_some_iff.1 m).1
          rw [pay.lengths.2] at this
          have : j < 2 := this
          omega
        rcases hj with rfl | rfl
        · obtain ⟨g1, c', g2, g3⟩ := pay.rest 0 bobs20 ⟨_, rfl, by decide +kernel⟩
          rw [g2] at m
          cases m
          have g1' : (TransactionNote.transfer note).outputCommitments[0 + 1]? = some bobs20.commitment := g1
          rw [g1'] at o
          rw [← Option.some.inj o] at op
          have := bobs20_alice
          rw [show ReceiverMemo.fromRo 0 bobs20 [] = _ from g3] at this
          dsimp only at this
          rw [op] at this
          cases this
        · obtain ⟨g1, c', g2, g3⟩ := pay.rest 1 alices30 ⟨_, rfl, by decide +kernel⟩
          rw [g2] at m
          cases m
          have g1' : (TransactionNote.transfer note).outputCommitments[1 + 1]? = some alices30.commitment := g1
          rw [g1'] at o
          rw [← Option.some.inj o, C35_round_trip _ _ _ _ _ rfl g3] at op
          cases op
          rw [show uid = 4 from Fin.ext (by rw [p, e3]; rfl)]
          simp
      | change wt a o p =>
        rename_i t ms pos chg uid
        obtain ⟨-, -, e3⟩ := hat a
        rw [e3] at p
        rw [expects wt, show uid = 2 from Fin.ext p]
        simp
    refine C62_settles pay hA ⟨fun x y hx hy hn => List.inj_on_of_nodup_map four_nullifiers (hr x hx) (hr y hy) hn,
      fun x hx t m pos a hp => ?_⟩ (fun c hc _ => expects hc) (List.mem_singleton.2 rfl) (List.mem_singleton.2 rfl)
    exfalso
    have h1 := hr x hx
    have : x.2.val ≤ 4 := by
      simp only [List.mem_cons, List.not_mem_nil, or_false] at h1
      rcases h1 with rfl | rfl | rfl | rfl <;> decide
    obtain ⟨rfl, -, rfl⟩ := hat a
    have hl : (TransactionNote.transfer note).outputCommitments.length = 3 := pay.lengths.1
    omega

end Cap.Examples
