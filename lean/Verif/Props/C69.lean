/-
C69: bad input is reported as an error, not a panic.

status: partial
note: C69_verify: verifying single notes, batches and memo signatures, signing memos, calculate_fee and derive_txns_fee_records never panic, whatever the arguments. C69_mint, C69_freeze: nor does making mints and freezes. C69_transfer_partial, C69_non_native_partial, C69_native_partial: making transfers panics only when overflow is checked and the totals reach 2^127 (for native transfers also when outputs plus fee reach 2^128 or there is no input), or when a credential asked for by the policy does not have eight attributes. These cases panic: C69_debug_false, C69_attrs_false, C69_empty_false. C69_preprocess: of the three preprocess functions only freeze for 0 inputs panics, as long as the tree has a leaf for every input (else see C82_freeze). C69_validator_false, C69_validator_partial: the reference validator panics on notes of a shape without keys, before it checks any proof, and on nothing else. Reading attributes and opening viewing memos are C31 and C39.
-/
import Verif.Lemmas.NoPanic
import Verif.Props.C68
import Verif.Model.Ledger

namespace Cap

open Spec

variable [E : CapEnv] [S : CapExt]

/-! ### verifying -/

/-- **Verifying never panics**: every note, every key, every root, every time; also batches of any shape, memo
signatures, and the fee functions of a block producer. -/
theorem C69_verify :
    (∀ (n : TransferNote) vk root t, n.verify vk root t ≠ .error .panic) ∧
    (∀ (n : MintNote) vk root, n.verify vk root ≠ .error .panic) ∧
    (∀ (n : FreezeNote) vk root, n.verify vk root ≠ .error .panic) ∧
    (∀ txns roots t keys, txnBatchVerify txns roots t keys ≠ .error .panic) ∧
    (∀ (t : TransactionNote) memos sig, t.verifyReceiverMemosSignature memos sig ≠ .error .panic) ∧
    (∀ sk memos, signReceiverMemos sk memos ≠ .error .panic) ∧
    (∀ txns, calculateFee txns ≠ .error .panic) ∧
    (∀ collectors fees blinds, deriveTxnsFeeRecords collectors fees blinds ≠ .error .panic) := by
  have ht : ∀ (n : TransferNote) root t, n.checkInstance root t ≠ .error .panic := by
    intro n root t
    unfold TransferNote.checkInstance
    split_ifs <;> exact fun h => by cases h
  have hm : ∀ (n : MintNote) root, n.checkInstance root ≠ .error .panic := by
    intro n root
    unfold MintNote.checkInstance
    split_ifs <;> exact fun h => by cases h
  have hf : ∀ (n : FreezeNote) root, n.checkInstance root ≠ .error .panic := by
    intro n root
    unfold FreezeNote.checkInstance
    split_ifs <;> exact fun h => by cases h
  have hd : ∀ memos, getReceiverMemosDigest memos ≠ .error .panic := by
    intro memos
    unfold getReceiverMemosDigest
    split <;> exact fun h => by cases h
  have hb : ∀ t txns roots, batchPublicInputs t txns roots ≠ .error .panic := by
    intro t txns
    induction txns with
    | nil => intro roots; rw [batchPublicInputs]; exacts [ok_ne_panic _, fun _ _ _ _ h => by cases h]
    | cons x xs ih =>
      intro roots
      cases roots with
      | nil => rw [batchPublicInputs]; exacts [ok_ne_panic _, fun _ _ _ _ _ h => by cases h]
      | cons r rs =>
        rw [batchPublicInputs]
        refine bind_ne_panic ?_ (fun _ _ => bind_ne_panic (ih rs) (fun _ _ => ok_ne_panic _))
        cases x with
        | transfer n => exact bind_ne_panic (ht _ _ _) (fun _ _ => ok_ne_panic _)
        | mint n => exact bind_ne_panic (hm _ _) (fun _ _ => ok_ne_panic _)
        | freeze n => exact bind_ne_panic (hf _ _) (fun _ _ => ok_ne_panic _)
  refine ⟨fun n vk root t => ?_, fun n vk root => ?_, fun n vk root => ?_, fun txns roots t keys => ?_,
    fun t memos sig => ?_, fun sk memos => ?_, fun txns => ?_, fun c f bl => ?_⟩
  · exact bind_ne_panic (ht _ _ _) (fun _ _ => ensure_ne_panic (by decide))
  · refine bind_ne_panic (hm _ _) (fun _ _ => bind_ne_panic ?_ (fun _ _ => ensure_ne_panic (by decide)))
    unfold verifyDomestic
    split <;> exact fun h => by cases h
  · exact bind_ne_panic (hf _ _) (fun _ _ => ensure_ne_panic (by decide))
  · unfold txnBatchVerify
    split
    · exact fun h => by cases h
    · exact bind_ne_panic (hb _ _ _) (fun _ _ => ensure_ne_panic (by decide))
  · exact bind_ne_panic (hd _) (fun _ _ => ensure_ne_panic (by decide))
  · exact bind_ne_panic (hd _) (fun _ _ => ok_ne_panic _)
  · unfold calculateFee
    split <;> exact fun h => by cases h
  · unfold deriveTxnsFeeRecords
    split_ifs <;> exact fun h => by cases h

/-! ### generating mints and freezes -/

theorem checkFee_ne_panic (fee : TxnFeeInfo) : checkFee fee ≠ .error .panic := by
  unfold checkFee
  repeat' first
    | exact ensure_ne_panic (by decide)
    | refine bind_ne_panic (ensure_ne_panic (by decide)) (fun _ _ => ?_)

theorem orFailedSnark_ne_panic {α : Type} (x : Option α) : orFailedSnark x ≠ .error .panic := by
  cases x <;> exact fun h => by cases h

theorem distinct_ne_panic (l : List F) : checkDistinctInputNullifiers l ≠ .error .panic := by
  unfold checkDistinctInputNullifiers
  split <;> exact fun h => by cases h

/-- **Making a mint never panics**, whatever the arguments. -/
theorem C69_mint (rng : TransferRand) (mint_ro : RecordOpening) (seed : F) (desc : List Byte) (fee : TxnFeeInfo)
    (pk : MintProvingKey) : MintNote.generate rng mint_ro seed desc fee pk ≠ .error .panic := by
  unfold MintNote.generate mintCheckProvingKey mintCheckInputPubKey mintCheckAssetCode checkUnfrozen
  dsimp only
  refine bind_ne_panic (ensure_ne_panic (by decide)) (fun _ _ => bind_ne_panic (ensure_ne_panic (by decide))
    (fun _ _ => bind_ne_panic (ensure_ne_panic (by decide)) (fun _ _ => bind_ne_panic (checkFee_ne_panic _)
    (fun _ _ => bind_ne_panic (ensure_ne_panic (by decide)) (fun _ _ => bind_ne_panic ?_ (fun _ _ => bind_ne_panic ?_
    (fun _ _ => ok_ne_panic _)))))))
  · unfold MintPublicInput.fromWitness
    split_ifs <;> exact fun h => by cases h
  · unfold mintProve
    split
    · exact fun h => by cases h
    · exact orFailedSnark_ne_panic _

/-- **Making a freeze never panics**, whatever the arguments. -/
theorem C69_freeze (rng : FreezeRand) (inputs : List FreezeNoteInput) (fee : TxnFeeInfo) (pk : FreezeProvingKey) :
    FreezeNote.generate rng inputs fee pk ≠ .error .panic := by
  unfold FreezeNote.generate freezeCheckInputsLen freezeCheckProvingKey freezeCheckPolicies
  dsimp only
  refine bind_ne_panic (ensure_ne_panic (by decide)) (fun _ _ => bind_ne_panic (ensure_ne_panic (by decide))
    (fun _ _ => bind_ne_panic ?_ (fun _ _ => bind_ne_panic (ensure_ne_panic (by decide)) (fun _ _ => bind_ne_panic
    (checkFee_ne_panic _) (fun _ _ => bind_ne_panic ?_ (fun pub hpub => bind_ne_panic (distinct_ne_panic _)
    (fun _ _ => bind_ne_panic ?_ (fun _ _ => ok_ne_panic _))))))))
  · unfold freezeCheckAndGetRoot
    split <;> exact fun h => by cases h
  · unfold FreezePublicInput.fromWitness FreezeWitness.newUnchecked
    dsimp only
    split_ifs <;> first | exact fun h => by cases h
  · unfold FreezePublicInput.fromWitness FreezeWitness.newUnchecked at hpub
    dsimp only at hpub
    split_ifs at hpub
    cases hpub
    unfold freezeProve FreezeWitness.newUnchecked FreezeWitness.toV FreezePublicInput.toV
    dsimp only [List.map_cons]
    split
    · exact fun h => by cases h
    · split
      · split
        · exact orFailedSnark_ne_panic _
        · exact fun h => by cases h
      · rename_i hno
        exact absurd rfl (hno _ _ rfl)

/-! ### generating transfers -/

omit E S in
theorem mapM_mem {α β : Type} {f : α → Res β} : ∀ {l : List α} {l' : List β}, l.mapM f = .ok l' →
    ∀ {y}, y ∈ l' → ∃ x ∈ l, f x = .ok y
  | [], l', h, y, hy => by
    cases h
    cases hy
  | a :: as, l', h, y, hy => by
    obtain ⟨b, bs, hb, hbs, rfl⟩ := mapM_cons_ok_iff.1 h
    rcases List.mem_cons.1 hy with rfl | hy
    · exact ⟨a, by simp, hb⟩
    · obtain ⟨x, hx, e⟩ := mapM_mem hbs hy
      exact ⟨x, List.mem_cons_of_mem _ hx, e⟩

omit S in
theorem memoMessage_ne_panic {ad : AssetDefinition} {ins outs : List RecordOpening} {creds : List ExpirableCredential}
    (h : ∀ x ∈ (ins.zip creds).tail, x.2.attrs.length = ATTRS_LEN) : memoMessage ad ins outs creds ≠ .error .panic := by
  unfold memoMessage
  refine bind_ne_panic (mapM_ne_panic (fun x hx => ?_)) (fun _ _ => bind_ne_panic (mapM_ne_panic (fun x _ => ?_))
    (fun _ _ => ok_ne_panic _))
  · have hl := h x hx
    unfold memoInput
    rw [if_neg (not_not.2 hl)]
    have hlen : ([ptX x.1.pub_key.address, ptY x.1.pub_key.address, Amount.toF x.1.amount, x.1.blind] ++
        x.2.attrs).length = 12 := by
      simp only [List.length_append, hl]
      rfl
    unfold RevealMap.hadamard
    dsimp only
    rw [if_pos (show _ ≤ VIEWABLE_DATA_LEN by rw [hlen]; exact le_rfl), res_ok_bind]
    split
    · split
      · exact ok_ne_panic _
      · rename_i hne
        exfalso
        have hz : (List.zipWith (fun b v => if b = true then v else (0 : F)) (Vector.toList ad.policy.reveal_map)
          ([ptX x.1.pub_key.address, ptY x.1.pub_key.address, Amount.toF x.1.amount, x.1.blind] ++
            x.2.attrs)).length = 12 := by
          rw [List.length_zipWith, hlen, Vector.length_toList]
          rfl
        revert hne hz
        generalize List.zipWith _ _ _ = l
        intro hne hz
        match l, hz with
        | [], hz => cases hz
        | [_], hz => cases hz
        | a :: c :: rest, _ => exact hne a c rest rfl
    · exact ok_ne_panic _
  · unfold memoOutput RevealMap.hadamard
    rw [if_pos (show _ ≤ VIEWABLE_DATA_LEN from by simp [VIEWABLE_DATA_LEN, REVEAL_MAP_LEN])]
    exact ok_ne_panic _

/-- **Making a transfer panics only for two reasons**: the totals reach `2^127` (and the crate was compiled with overflow
checks), or a credential that the policy asks for does not have eight attributes.  Missing for the full property: these
two cases. -/
theorem C69_transfer_partial (b : Build) (rng : TransferRand) (inputs : List TransferNoteInput)
    (outputs : List RecordOpening) (pk : TransferProvingKey) (valid_until : U64) (extra : List Byte)
    (small : b = .debug → total (inputs.map (·.ro)) < 2 ^ 127 ∧ total outputs < 2 ^ 127)
    (attrs : ∀ i ∈ inputs, i.ro.asset_def.policy.cred_pk ≠ 0 → ∀ c, i.cred = some c → c.attrs.length = ATTRS_LEN) :
    TransferNote.generate b rng inputs outputs pk valid_until extra ≠ .error .panic := by
  unfold TransferNote.generate
  refine bind_ne_panic (ensure_ne_panic (by decide)) (fun _ hne => ?_)
  rw [ensure_ok_iff, Bool.not_eq_true', Bool.or_eq_false_iff] at hne
  dsimp only
  obtain ⟨hin, hout⟩ := hne
  cases inputs with
  | nil => cases hin
  | cons i0 is =>
  cases outputs with
  | nil => cases hout
  | cons o0 os =>
  have hkey : ∀ d, transferCheckProvingKey pk.n_inputs pk.n_outputs pk.tree_depth (i0 :: is) d ≠ .error .panic := by
    intro d
    unfold transferCheckProvingKey
    exact bind_ne_panic (ensure_ne_panic (by decide)) (fun _ _ => bind_ne_panic (ensure_ne_panic (by decide))
      (fun _ _ => ensure_ne_panic (by decide)))
  have hdum : checkDummyInputs ((i0 :: is).map (·.ro)) ≠ .error .panic := by
    rw [List.map_cons]
    unfold checkDummyInputs
    exact bind_ne_panic (ensure_ne_panic (by decide)) (fun _ _ => ensure_ne_panic (by decide))
  refine bind_ne_panic (hkey _) (fun _ _ => bind_ne_panic (ensure_ne_panic (by decide)) (fun _ _ =>
    bind_ne_panic hdum (fun _ hd => bind_ne_panic ?_ (fun fee _ => bind_ne_panic ?_ (fun _ _ =>
    bind_ne_panic (ensure_ne_panic (by decide)) (fun _ _ => bind_ne_panic ?_ (fun root _ =>
    bind_ne_panic ?_ (fun _ _ => bind_ne_panic ?_ (fun w hw => bind_ne_panic ?_ (fun pub _ =>
    bind_ne_panic (distinct_ne_panic _) (fun _ _ => bind_ne_panic ?_ (fun _ _ => ok_ne_panic _))))))))))))
  · rw [List.map_cons] at hd ⊢
    cases b with
    | release => exact checkBalance_release
    | debug =>
      obtain ⟨h1, h2⟩ := small rfl
      simp only [checkDummyInputs, bind_ok_iff, ensure_ok_iff, Bool.not_eq_true', List.any_eq_false,
        decide_eq_true_eq, not_and, not_not] at hd
      obtain ⟨-, h0, hz⟩ := hd
      have h0' : i0.ro.asset_def ≠ AssetDefinition.dummy := by
        intro h
        rw [RecordOpening.isDummy, AssetDefinition.isDummy_iff.2 h] at h0
        cases h0
      refine checkBalance_ne_panic h0' (fun r hr hrd => ?_) h1 h2
      rcases List.mem_cons.1 hr with rfl | hr
      · exact absurd hrd h0'
      · exact hz r hr (AssetDefinition.isDummy_iff.2 hrd)
  · rw [List.map_cons]
    unfold transferCheckAssetDef
    dsimp only
    repeat' first
      | exact ensure_ne_panic (by decide)
      | refine bind_ne_panic (ensure_ne_panic (by decide)) (fun _ _ => ?_)
  · unfold transferCheckAndGetRoots
    dsimp only
    split <;> exact fun h => by cases h
  · clear hin hkey hdum attrs small hd
    generalize i0 :: is = l
    induction l with
    | nil => exact ok_ne_panic _
    | cons i l ih =>
      rw [transferCheckCreds]
      refine bind_ne_panic ?_ (fun _ _ => ih)
      unfold transferCheckCred
      split
      · split
        · unfold ExpirableCredential.verify
          split_ifs <;> exact fun h => by cases h
        · exact fun h => by cases h
      · exact ok_ne_panic _
  · unfold TransferWitness.newUnchecked
    refine bind_ne_panic (mapM_ne_panic (fun i _ => ?_)) (fun _ _ => ok_ne_panic _)
    refine bind_ne_panic ?_ (fun _ _ => ok_ne_panic _)
    unfold inputCred
    split
    · unfold ExpirableCredential.dummyUnexpired
      split <;> exact fun h => by cases h
    · split <;> exact fun h => by cases h
  · -- the viewing memo
    have hcreds : ∀ s ∈ w.input_secrets, s.cred.attrs.length = ATTRS_LEN := by
      simp only [TransferWitness.newUnchecked, bind_ok_iff] at hw
      obtain ⟨secrets, hs, hw⟩ := hw
      cases hw
      intro s hs'
      obtain ⟨i, hi, he⟩ := mapM_mem hs hs'
      simp only [inputSecretOf, bind_ok_iff] at he
      obtain ⟨c, hc, he⟩ := he
      cases he
      unfold inputCred at hc
      split at hc
      · unfold ExpirableCredential.dummyUnexpired ExpirableCredential.create at hc
        rw [if_neg (by simp [ExpirableCredential.defaultVector])] at hc
        cases hc
        simp [ExpirableCredential.defaultVector]
      · rename_i hpk
        split at hc
        · rename_i c' hc'
          cases hc
          exact attrs i hi hpk _ hc'
        · cases hc
    unfold TransferPublicInput.fromWitness
    split
    · exact fun h => by cases h
    · split
      · exact fun h => by cases h
      · rename_i s0 ss hss _ o0' os' hos
        refine bind_ne_panic (safeSumOr_ne_panic _) (fun _ _ => bind_ne_panic (safeSumOr_ne_panic _) (fun _ _ =>
          bind_ne_panic ?_ (fun _ _ => bind_ne_panic ?_ (fun _ _ => ok_ne_panic _))))
        · unfold checkedSub
          split <;> exact fun h => by cases h
        · unfold ViewableMemo.newForTransferNote
          refine bind_ne_panic ?_ (fun ad _ => ?_)
          · unfold getAssetDefInTransferTxn
            split
            · exact fun h => by cases h
            · split
              · exact fun h => by cases h
              · split <;> exact fun h => by cases h
          · split
            · exact fun h => by cases h
            · split
              · exact fun h => by cases h
              · split
                · refine bind_ne_panic (memoMessage_ne_panic (fun x hx => ?_)) (fun _ _ => ok_ne_panic _)
                  have := List.of_mem_zip (List.mem_of_mem_tail hx)
                  obtain ⟨s, hs, he⟩ := List.mem_map.1 this.2
                  rw [← he]
                  exact hcreds s hs
                · unfold ViewableMemo.dummyForTransferNote
                  rw [hss, hos, if_neg (by simp)]
                  exact ok_ne_panic _
  · unfold transferProve
    split
    · exact orFailedSnark_ne_panic _
    · exact fun h => by cases h

/-- **With separate fee information**: the same two reasons. -/
theorem C69_non_native_partial (b : Build) (rng : TransferRand) (inputs : List TransferNoteInput)
    (outputs : List RecordOpening) (fee : TxnFeeInfo) (valid_until : U64) (pk : TransferProvingKey) (extra : List Byte)
    (small : b = .debug → fee.fee_input.ro.amount.val + total (inputs.map (·.ro)) < 2 ^ 127 ∧
      fee.fee_chg_ro.amount.val + total outputs < 2 ^ 127)
    (attrs : ∀ i ∈ inputs, i.ro.asset_def.policy.cred_pk ≠ 0 → ∀ c, i.cred = some c → c.attrs.length = ATTRS_LEN) :
    TransferNote.generateNonNative b rng inputs outputs fee valid_until pk extra ≠ .error .panic := by
  refine bind_ne_panic (checkFee_ne_panic fee) (fun _ hfee => C69_transfer_partial b rng _ _ pk valid_until extra ?_ ?_)
  · intro hb
    obtain ⟨h1, h2⟩ := small hb
    rw [List.map_cons, total_cons, total_cons]
    exact ⟨h1, h2⟩
  · intro i hi hc
    rcases List.mem_cons.1 hi with rfl | hi
    · obtain ⟨-, h3, -⟩ := (C23_check_fee fee).1 hfee
      exfalso
      apply hc
      show fee.fee_input.ro.asset_def.policy.cred_pk = 0
      rw [h3]
      rfl
    · exact attrs i hi hc

/-- **Native transfers**: they panic only without inputs, or for large amounts when overflow is checked. -/
theorem C69_native_partial (b : Build) (chg_blind : F) (rng : TransferRand) (inputs : List TransferNoteInput)
    (outputs : List RecordOpening) (fee : Amount) (valid_until : U64) (pk : TransferProvingKey)
    (nonempty : inputs ≠ [])
    (small : b = .debug → total (inputs.map (·.ro)) < 2 ^ 127 ∧ total outputs + fee.val < 2 ^ 128) :
    TransferNote.generateNative b chg_blind rng inputs outputs fee valid_until pk ≠ .error .panic := by
  cases inputs with
  | nil => exact absurd rfl nonempty
  | cons i0 is =>
  unfold TransferNote.generateNative
  dsimp only
  refine bind_ne_panic (ensure_ne_panic (by decide)) (fun _ hn => bind_ne_panic (safeSumOr_ne_panic _) (fun ti hti =>
    bind_ne_panic (safeSumOr_ne_panic _) (fun o hto => bind_ne_panic ?_ (fun need hneed => bind_ne_panic
    (ensure_ne_panic (by decide)) (fun _ hle => bind_ne_panic ?_ (fun _ _ => ok_ne_panic _))))))
  · unfold addU128
    split
    · exact ok_ne_panic _
    · rename_i hov
      cases b with
      | release => exact ok_ne_panic _
      | debug =>
        exfalso
        apply hov
        rw [safeSumOr_ok] at hto
        have h2 := (small rfl).2
        have : total outputs = o.val := by
          rw [← hto, List.map_map]
          rfl
        omega
  · refine C69_transfer_partial b rng _ _ pk valid_until [] (fun hb => ⟨(small hb).1, ?_⟩) ?_
    · subst hb
      obtain ⟨h1, h2⟩ := small rfl
      rw [safeSumOr_ok] at hto hti
      have e1 : total outputs = o.val := by
        rw [← hto, List.map_map]
        rfl
      have e2 : ti.val ≤ total ((i0 :: is).map (·.ro)) := by
        rw [← hti]
        unfold total
        rw [List.map_map, List.map_map]
        exact List.Sublist.sum_le_sum (List.filter_sublist.map _) (fun _ _ => Nat.zero_le _)
      have e3 : need.val = o.val + fee.val := by
        unfold addU128 at hneed
        rw [dif_pos (by omega)] at hneed
        rw [← Except.ok.inj hneed]
      rw [ensure_ok_iff, Bool.not_eq_true', decide_eq_false_iff_not, not_lt, Fin.le_def] at hle
      rw [total_cons]
      have e4 : (ti - o - fee).val = ti.val - o.val - fee.val := by
        rw [Fin.sub_val_of_le, Fin.sub_val_of_le]
        · rw [Fin.le_def]
          omega
        · rw [Fin.le_def, Fin.sub_val_of_le]
          · omega
          · rw [Fin.le_def]
            omega
      show (ti - o - fee).val + total outputs < 2 ^ 127
      omega
    · intro i hi hc c hic
      exfalso
      apply hc
      rw [ensure_ok_iff, Bool.not_eq_true', Bool.or_eq_false_iff, Bool.or_eq_false_iff, Bool.not_eq_false',
        AssetDefinition.isNative_iff, List.any_eq_false] at hn
      obtain ⟨⟨k1, k2⟩, -⟩ := hn
      rcases List.mem_cons.1 hi with rfl | hi
      · rw [k1]
        rfl
      · have := k2 i hi
        rw [Bool.not_eq_true, Bool.not_eq_false', Bool.or_eq_true, AssetDefinition.isNative_iff, RecordOpening.isDummy,
          AssetDefinition.isDummy_iff] at this
        rcases this with h | h <;> rw [h] <;> rfl

/-! ### what panics -/

/-- a coin of `2^126` at some place of a tree -/
def hugeCoin (k : UserKeyPair) (d : ℕ) (root : F) (uid : U64) : TransferNoteInput :=
  ⟨coin k.pubKey big, ⟨List.replicate d ⟨0, 0, .left⟩, root, uid⟩, k, none⟩

/-- **The property fails, totals**: in every environment, for every key and depth, a transfer of two coins of `2^126`
that balances makes a build with overflow checks panic. -/
theorem C69_debug_false (k : UserKeyPair) (d : Fin 256) (key : S.Pk) (rng : TransferRand) (root : F) (valid_until : U64)
    (extra : List Byte) :
    Balanced ([hugeCoin k d.val root 0, hugeCoin k d.val root 1].map (·.ro)) [coin k.pubKey big, coin k.pubKey big] 0 ∧
    TransferNote.generate .debug rng [hugeCoin k d.val root 0, hugeCoin k d.val root 1]
      [coin k.pubKey big, coin k.pubKey big] ⟨key, 2, 2, d⟩ valid_until extra = .error .panic := by
  refine ⟨(coins_balanced k.pubKey (a := big) (as := [big]) (bs := [big, big]) (fee := 0)).2 (by decide +kernel), ?_⟩
  unfold TransferNote.generate
  have h1 : transferCheckProvingKey 2 2 d [hugeCoin k d.val root 0, hugeCoin k d.val root 1]
      [coin k.pubKey big, coin k.pubKey big].length = .ok () := by
    unfold transferCheckProvingKey
    rw [show ensure _ _ = Except.ok () from ensure_ok_iff.2 (by simp), res_ok_bind,
      show ensure _ _ = Except.ok () from ensure_ok_iff.2 (by simp), res_ok_bind]
    exact ensure_ok_iff.2 (by simp [hugeCoin])
  have h2 : transferCheckInputPubKeys [hugeCoin k d.val root 0, hugeCoin k d.val root 1] = .ok () := by
    unfold transferCheckInputPubKeys
    refine ensure_ok_iff.2 (List.all_eq_true.2 (fun i hi => ?_))
    have hi := List.mem_of_mem_filter hi
    simp only [List.mem_cons, List.not_mem_nil, or_false] at hi
    rcases hi with rfl | rfl <;> exact decide_eq_true rfl
  have hn : AssetDefinition.isDummy (E := E) AssetDefinition.native = false :=
    decide_eq_false nativeDef_ne_dummyDef
  have h3 : checkDummyInputs ([hugeCoin k d.val root 0, hugeCoin k d.val root 1].map (·.ro)) = .ok () := by
    simp only [hugeCoin, coin, List.map_cons, List.map_nil, checkDummyInputs, RecordOpening.isDummy, hn,
      List.any_cons, List.any_nil, bind_ok_iff, ensure_ok_iff]
    exact ⟨(), by decide, by simp⟩
  have h4 : checkBalance .debug ([hugeCoin k d.val root 0, hugeCoin k d.val root 1].map (·.ro))
      [coin k.pubKey big, coin k.pubKey big] = .error .panic :=
    coins_error k.pubKey (a := big) (as := [big]) (by decide +kernel)
  rw [show ensure (!([hugeCoin k d.val root 0, hugeCoin k d.val root 1].isEmpty ||
    [coin k.pubKey big, coin k.pubKey big].isEmpty)) Err.invalidParameter = Except.ok () from rfl, res_ok_bind]
  dsimp only
  rw [h1, res_ok_bind, h2, res_ok_bind, h3, res_ok_bind, h4, res_error_bind]

/-- a credential with the given attributes, signed by the holder of `sk` -/
def anyCredential (sk : Fr) (user_addr : Pt) (attrs : List IdentityAttribute) (expiry : U64) : ExpirableCredential :=
  { user_addr, attrs, expiry, cred := E.schnorrSign sk (ExpirableCredential.msg expiry user_addr attrs),
    creator_pk := smulFr sk E.gen }

/-- one unit of an asset -/
def unitOf (ad : AssetDefinition) (o : UserPubKey) : RecordOpening := ⟨1, ad, o, .unfrozen, 0⟩

/-- **The property fails, attributes**: in every environment, if the issuer of credentials signs one whose number of
attributes is not eight, then it is valid, and its holder's transfer of a unit panics, in every build. -/
theorem C69_attrs_false (b : Build) (k : UserKeyPair) (sk : Fr) (ad : AssetDefinition)
    (policy : ad.policy.cred_pk = smulFr sk E.gen) (cred : ad.policy.cred_pk ≠ 0) (viewer : ad.policy.viewer_pk ≠ 0)
    (threshold : ad.policy.reveal_threshold = 0) (code : ad.code ≠ nativeCode)
    (attrs : List IdentityAttribute) (length : attrs.length ≠ ATTRS_LEN)
    (d : Fin 256) (key : S.Pk) (rng : TransferRand) (root : F) (valid_until : U64) (extra : List Byte) :
    (anyCredential sk k.pubKey.address attrs valid_until).verify valid_until = .ok () ∧
    TransferNote.generate b rng
      [⟨coin k.pubKey 5, ⟨List.replicate d.val ⟨0, 0, .left⟩, root, 0⟩, k, none⟩,
       ⟨unitOf ad k.pubKey, ⟨List.replicate d.val ⟨0, 0, .left⟩, root, 1⟩, k,
        some (anyCredential sk k.pubKey.address attrs valid_until)⟩]
      [coin k.pubKey 3, unitOf ad k.pubKey] ⟨key, 2, 2, d⟩ valid_until extra = .error .panic := by
  have hcred : (anyCredential sk k.pubKey.address attrs valid_until).verify valid_until = .ok () := by
    unfold ExpirableCredential.verify ExpirableCredential.isExpired
    rw [if_neg (by simp [anyCredential])]
    exact if_pos (E.schnorr_correct sk _)
  refine ⟨hcred, ?_⟩
  have hnd : ad ≠ AssetDefinition.dummy := fun h => cred (by rw [h]; rfl)
  have hnn : ad ≠ AssetDefinition.native := fun h => cred (by rw [h]; rfl)
  have nd : AssetDefinition.isDummy ad = false := decide_eq_false hnd
  have nn : AssetDefinition.isNative ad = false := decide_eq_false hnn
  have hn : AssetDefinition.isDummy (E := E) AssetDefinition.native = false :=
    decide_eq_false nativeDef_ne_dummyDef
  have hnt : AssetDefinition.isNative (E := E) AssetDefinition.native = true := decide_eq_true rfl
  set i0 : TransferNoteInput := ⟨coin k.pubKey 5, ⟨List.replicate d.val ⟨0, 0, .left⟩, root, 0⟩, k, none⟩ with hi0
  set i1 : TransferNoteInput := ⟨unitOf ad k.pubKey, ⟨List.replicate d.val ⟨0, 0, .left⟩, root, 1⟩, k,
    some (anyCredential sk k.pubKey.address attrs valid_until)⟩ with hi1
  have hros : [i0, i1].map (·.ro) = [coin k.pubKey 5, unitOf ad k.pubKey] := rfl
  have h1 : transferCheckProvingKey 2 2 d [i0, i1] [coin k.pubKey 3, unitOf ad k.pubKey].length = .ok () := by
    unfold transferCheckProvingKey
    rw [show ensure _ _ = Except.ok () from ensure_ok_iff.2 (by simp), res_ok_bind,
      show ensure _ _ = Except.ok () from ensure_ok_iff.2 (by simp), res_ok_bind]
    exact ensure_ok_iff.2 (by simp [hi0, hi1])
  have h2 : transferCheckInputPubKeys [i0, i1] = .ok () := by
    unfold transferCheckInputPubKeys
    refine ensure_ok_iff.2 (List.all_eq_true.2 (fun i hi => ?_))
    have hi := List.mem_of_mem_filter hi
    simp only [List.mem_cons, List.not_mem_nil, or_false] at hi
    rcases hi with rfl | rfl <;> exact decide_eq_true rfl
  have h3 : checkDummyInputs [coin k.pubKey 5, unitOf ad k.pubKey] = .ok () := by
    simp only [coin, unitOf, checkDummyInputs, RecordOpening.isDummy, hn, nd,
      List.any_cons, List.any_nil, bind_ok_iff, ensure_ok_iff]
    exact ⟨(), by decide, by simp⟩
  have ha : AssetsOk ad [coin k.pubKey 5, unitOf ad k.pubKey] [coin k.pubKey 3, unitOf ad k.pubKey] := by
    refine ⟨⟨⟨_, _, rfl, rfl⟩, ⟨_, _, rfl, rfl⟩, ?_, ?_, ?_, hnd⟩, ?_⟩
    · intro r hr
      obtain rfl := List.mem_singleton.1 hr
      exact Or.inr rfl
    · intro r hr
      obtain rfl := List.mem_singleton.1 hr
      rfl
    · intro h
      exact absurd (h _ (List.mem_singleton.2 rfl)) hnd
    · intro r hr hf
      simp only [List.mem_append, List.mem_cons, List.not_mem_nil, or_false] at hr
      rcases hr with (rfl | rfl) | (rfl | rfl)
      · exact absurd rfl hf
      · exact viewer
      · exact absurd rfl hf
      · exact viewer
  have hreal : real [coin k.pubKey 5, unitOf ad k.pubKey] = [coin k.pubKey 5, unitOf ad k.pubKey] := by
    rw [real_cons_of_ne (show (coin k.pubKey 5).asset_def ≠ _ from nativeDef_ne_dummyDef),
      real_cons_of_ne (show (unitOf ad k.pubKey).asset_def ≠ _ from hnd)]
    rfl
  have h4 : checkBalance b [coin k.pubKey 5, unitOf ad k.pubKey] [coin k.pubKey 3, unitOf ad k.pubKey] = .ok 2 := by
    refine checkBalance_complete b ha (Or.inr code) ?_ ⟨_, _, rfl, fun c => ?_⟩ ?_
    · intro r hr hd
      simp only [List.mem_cons, List.not_mem_nil, or_false] at hr
      rcases hr with rfl | rfl
      · exact absurd hd nativeDef_ne_dummyDef
      · exact absurd hd hnd
    · rw [hreal, totalOf_cons, totalOf_cons, totalOf_cons, totalOf_cons]
      by_cases hc : c = nativeCode
      · subst hc
        rw [if_pos (show (coin k.pubKey 5).asset_def.code = nativeCode from rfl),
          if_pos (show (coin k.pubKey 3).asset_def.code = nativeCode from rfl),
          if_neg (show ¬ (unitOf ad k.pubKey).asset_def.code = _ from code),
          if_pos (show nativeCode = (coin k.pubKey 5).asset_def.code from rfl)]
        rfl
      · rw [if_neg (show ¬ (coin k.pubKey 5).asset_def.code = _ from fun h => hc h.symm),
          if_neg (show ¬ (coin k.pubKey 3).asset_def.code = _ from fun h => hc h.symm),
          if_neg (show ¬ c = (coin k.pubKey 5).asset_def.code from hc)]
        omega
    · rw [hreal]
      show 5 + (1 + 0) < _
      norm_num
  have h5 : transferCheckAssetDef [coin k.pubKey 5, unitOf ad k.pubKey] [coin k.pubKey 3, unitOf ad k.pubKey] = .ok () :=
    transferCheckAssetDef_ok.2 ⟨ad, ha⟩
  have h6 : checkUnfrozen [coin k.pubKey 5, unitOf ad k.pubKey] [coin k.pubKey 3, unitOf ad k.pubKey] = .ok () :=
    ensure_ok_iff.2 (by simp [coin, unitOf])
  have h7 : transferCheckAndGetRoots [i0, i1] = .ok root := by
    unfold transferCheckAndGetRoots
    dsimp only
    rw [if_neg]
    rw [Bool.not_eq_true, List.any_eq_false]
    intro i hi
    have hi := List.mem_of_mem_filter hi
    simp only [List.mem_cons, List.not_mem_nil, or_false] at hi
    rcases hi with rfl | rfl <;> simp [hi0, hi1]
  have h8 : transferCheckCreds valid_until [i0, i1] = .ok () := by
    rw [transferCheckCreds, transferCheckCred, if_neg (show ¬ i0.ro.asset_def.policy.cred_pk ≠ 0 from fun h => h rfl),
      res_ok_bind, transferCheckCreds, transferCheckCred,
      if_pos (show i1.ro.asset_def.policy.cred_pk ≠ 0 from cred)]
    show (ExpirableCredential.verify _ _ >>= fun _ => transferCheckCreds valid_until []) = _
    rw [hcred, res_ok_bind]
    rfl
  have hdc : ∃ c, ExpirableCredential.dummyUnexpired = .ok c := by
    unfold ExpirableCredential.dummyUnexpired ExpirableCredential.create
    rw [if_neg (by simp [ExpirableCredential.defaultVector])]
    exact ⟨_, rfl⟩
  obtain ⟨c0, hc0⟩ := hdc
  have h9 : ∃ w, TransferWitness.newUnchecked rng.enc_rand [i0, i1] [coin k.pubKey 3, unitOf ad k.pubKey] = .ok w ∧
      w.input_secrets = [⟨k, coin k.pubKey 5, i0.acc, c0⟩,
        ⟨k, unitOf ad k.pubKey, i1.acc, anyCredential sk k.pubKey.address attrs valid_until⟩] ∧
      w.output_ros = [coin k.pubKey 3, unitOf ad k.pubKey] := by
    refine ⟨⟨witnessAssetDef [i0, i1], [⟨k, coin k.pubKey 5, i0.acc, c0⟩,
      ⟨k, unitOf ad k.pubKey, i1.acc, anyCredential sk k.pubKey.address attrs valid_until⟩],
      [coin k.pubKey 3, unitOf ad k.pubKey], rng.enc_rand⟩, ?_, ?_, ?_⟩
    · unfold TransferWitness.newUnchecked
      have e0 : inputSecretOf i0 = .ok ⟨k, coin k.pubKey 5, i0.acc, c0⟩ := by
        unfold inputSecretOf inputCred
        rw [if_pos (show i0.ro.asset_def.policy.cred_pk = 0 from rfl), hc0]
        rfl
      have e1 : inputSecretOf i1 =
          .ok ⟨k, unitOf ad k.pubKey, i1.acc, anyCredential sk k.pubKey.address attrs valid_until⟩ := by
        unfold inputSecretOf inputCred
        rw [if_neg (show ¬ i1.ro.asset_def.policy.cred_pk = 0 from cred)]
        rfl
      rw [show List.mapM inputSecretOf [i0, i1] = .ok _ from
        mapM_cons_ok_iff.2 ⟨_, _, e0, mapM_cons_ok_iff.2 ⟨_, _, e1, mapM_nil, rfl⟩, rfl⟩]
      rfl
    · rfl
    · rfl
  obtain ⟨w, hw, hs, hos⟩ := h9
  have hmemo : ViewableMemo.newForTransferNote [coin k.pubKey 5, unitOf ad k.pubKey]
      [coin k.pubKey 3, unitOf ad k.pubKey] [c0, anyCredential sk k.pubKey.address attrs valid_until] w.enc_rand =
      .error .panic := by
    unfold ViewableMemo.newForTransferNote
    have e1 : getAssetDefInTransferTxn [coin k.pubKey 5, unitOf ad k.pubKey] = .ok ad := by
      unfold getAssetDefInTransferTxn
      dsimp only
      rw [if_neg (by simp [coin, hnt])]
      simp [unitOf, nd]
    have e2 : memoTransferAmount [coin k.pubKey 5, unitOf ad k.pubKey] = some 1 := by
      unfold memoTransferAmount
      rw [List.tail_cons, List.filter_cons_of_pos (by simp [unitOf, nd])]
      rfl
    rw [e1, res_ok_bind, if_neg (by rw [nd]; decide), e2]
    dsimp only
    rw [if_pos ⟨viewer, by rw [threshold]; decide⟩]
    unfold memoMessage
    show ((List.mapM (fun x : RecordOpening × ExpirableCredential => memoInput ad.policy.reveal_map x.1 x.2)
      [(unitOf ad k.pubKey, anyCredential sk k.pubKey.address attrs valid_until)] >>= _) >>= _) = _
    rw [List.mapM_cons, memoInput, if_pos (show (anyCredential sk k.pubKey.address attrs valid_until).attrs.length ≠ _
      from length)]
    rfl
  have h10 : TransferPublicInput.fromWitness w valid_until = .error .panic := by
    unfold TransferPublicInput.fromWitness
    rw [hs, hos]
    dsimp only
    rw [List.filter_cons_of_pos (by simp [coin, hn]), List.filter_cons_of_pos (by simp [unitOf, nd]), List.filter_nil]
    rw [show safeSumOr ([_, _].map _) = Except.ok 6 from rfl, res_ok_bind,
      show safeSumOr ([_, _].map _) = Except.ok 4 from rfl, res_ok_bind,
      show checkedSub 6 4 = Except.ok 2 from rfl, res_ok_bind]
    simp only [List.map_cons, List.map_nil]
    rw [hmemo, res_error_bind]
  unfold TransferNote.generate
  rw [show ensure (!([i0, i1].isEmpty || [coin k.pubKey 3, unitOf ad k.pubKey].isEmpty)) Err.invalidParameter =
    Except.ok () from rfl, res_ok_bind]
  dsimp only
  rw [h1, res_ok_bind, h2, res_ok_bind, hros, h3, res_ok_bind, h4, res_ok_bind, h5, res_ok_bind, h6, res_ok_bind, h7,
    res_ok_bind, h8, res_ok_bind, hw, res_ok_bind, h10, res_error_bind]

/-- **The property fails, no inputs**: a native transfer without inputs panics, in every build. -/
theorem C69_empty_false (b : Build) (chg_blind : F) (rng : TransferRand) (outputs : List RecordOpening) (fee : Amount)
    (valid_until : U64) (pk : TransferProvingKey) :
    TransferNote.generateNative b chg_blind rng [] outputs fee valid_until pk = .error .panic := rfl

/-- **Preprocessing**: as long as the tree has a leaf for every input, only a freeze key for no inputs at all panics.  (With
more inputs than leaves a freeze key always panics, `C82_freeze`.) -/
theorem C69_preprocess :
    (∀ n m d, transferPreprocess n m d ≠ .error .panic) ∧ (∀ d, mintPreprocess d ≠ .error .panic) ∧
    (∀ n d, n ≤ 3 ^ d.val → (freezePreprocess n d = .error .panic ↔ n = 0)) := by
  refine ⟨fun n m d => ?_, fun d => ?_, fun n d _ => ?_⟩
  · unfold transferPreprocess
    split
    · exact fun h => by cases h
    · split <;> exact fun h => by cases h
  · unfold mintPreprocess
    split <;> exact fun h => by cases h
  · unfold freezePreprocess
    constructor
    · intro h
      by_contra hn
      rw [if_neg hn] at h
      split at h
      · cases h
      · split at h <;> cases h
    · intro h
      rw [if_pos h]

/-- **The property fails, validators**: the reference validator panics on a transfer without inputs or outputs and on a
freeze with fewer than two inputs, before it looks at anything else in the note.  Anybody can write such a note: no proof
is needed. -/
theorem C69_validator_false (d : Fin 256) (s : LedgerState) (rest : List TransactionNote) (t : U64) :
    (∀ n : TransferNote, n.inputs_nullifiers = [] ∨ n.output_commitments = [] →
      validateTxnsBatch d s (.transfer n :: rest) t = .error .panic) ∧
    (∀ n : FreezeNote, n.input_nullifiers.length ≤ 1 →
      validateTxnsBatch d s (.freeze n :: rest) t = .error .panic) := by
  constructor
  · intro n hn
    unfold validateTxnsBatch
    rw [validateLoop, keyForNote, transferPreprocess, if_pos (by simpa using hn)]
    rfl
  · intro n hn
    unfold validateTxnsBatch
    rw [validateLoop, keyForNote, freezePreprocess]
    by_cases h0 : n.input_nullifiers.length = 0
    · rw [if_pos h0]
      rfl
    · rw [if_neg h0, if_pos hn]
      rfl

/-- **Otherwise the reference validator does not panic**: when every note has a shape for which there are keys. -/
theorem C69_validator_partial (d : Fin 256) (s : LedgerState) (txns : List TransactionNote) (t : U64)
    (keys : ∀ x ∈ txns, ∃ k, keyForNote d x = .ok k) : validateTxnsBatch d s txns t ≠ .error .panic := by
  unfold validateTxnsBatch
  refine bind_ne_panic ?_ (fun _ _ => C69_verify.2.2.2.1 _ _ _ _)
  generalize ([] : List F) = checked
  induction txns generalizing checked with
  | nil => exact ok_ne_panic _
  | cons x xs ih =>
    rw [validateLoop]
    obtain ⟨k, hk⟩ := keys x (by simp)
    rw [hk, res_ok_bind]
    refine bind_ne_panic ?_ (fun c _ => bind_ne_panic (ensure_ne_panic (by decide)) (fun _ _ => bind_ne_panic
      (ih (fun y hy => keys y (List.mem_cons_of_mem _ hy)) c) (fun _ _ => ok_ne_panic _)))
    unfold checkTxnInputNullifiers
    split
    · exact fun h => by cases h
    · split <;> exact fun h => by cases h

end Cap

namespace Cap.Examples

open Toy Spec

/-- the example transfer has credentials with eight attributes and small totals, so it cannot panic in either build -/
example (b : Build) : TransferNote.generate b rng xfrInputs xfrOutputs xfrPk 900 [1, 2, 3] ≠ .error .panic :=
  C69_transfer_partial b rng xfrInputs xfrOutputs xfrPk 900 [1, 2, 3] (fun _ => by decide +kernel) (by
    intro i hi _ c hc
    simp only [xfrInputs, List.mem_cons, List.not_mem_nil, or_false] at hi
    rcases hi with rfl | rfl | rfl
    · cases hc
    · cases hc
      rfl
    · cases hc)

/-- the example native transfer -/
example (b : Build) (fee : Amount) (h : fee.val < 2 ^ 64) :
    TransferNote.generateNative b 1 rng natInputs natOutputs fee 800 natPk ≠ .error .panic :=
  C69_native_partial b 1 rng natInputs natOutputs fee 800 natPk (by decide +kernel) (fun _ =>
    ⟨by decide +kernel, by
      have : total natOutputs < 2 ^ 64 := by decide +kernel
      omega⟩)

/-- the asset of the example transfer meets the conditions of `C69_attrs_false`, with threshold 0 -/
def sevenAsset : AssetDefinition := { asset with policy := { asset.policy with reveal_threshold := 0 } }

/-- Alice holds a credential with seven attributes -/
example (b : Build) (key : S.Pk) (t : U64) (root : F) :
    ∃ inputs outputs, TransferNote.generate b rng inputs outputs ⟨key, 2, 2, 1⟩ t [] = .error .panic :=
  ⟨_, _, (C69_attrs_false b alice (11 : ZMod r) sevenAsset (by decide +kernel) (by decide +kernel) (by decide +kernel) rfl
    (by decide +kernel) (List.replicate 7 0) (by decide) 1 key rng root t []).2⟩

/-- a validator with an empty ledger panics on a transfer without inputs that carries the proof of another note -/
example (t : U64) : validateTxnsBatch 1 ⟨[], [], []⟩ [.transfer { xfrNote with inputs_nullifiers := [] }] t =
    .error .panic :=
  (C69_validator_false 1 ⟨[], [], []⟩ [] t).1 _ (Or.inl rfl)

/-- and does not panic on the example transfer -/
example (t : U64) (s : LedgerState) : validateTxnsBatch 1 s [.transfer xfrNote, .mint mintNote] t ≠ .error .panic :=
  C69_validator_partial 1 s _ t (by
    intro x hx
    simp only [List.mem_cons, List.not_mem_nil, or_false] at hx
    rcases hx with rfl | rfl
    · have h1 : xfrNote.inputs_nullifiers.length = 3 := by
        rw [transfer_nullifiers xfrNote_eq]
        rfl
      have h2 : xfrNote.output_commitments.length = 3 := by
        rw [(C68_change xfr_non_native).2.2.2.2.2.2]
        rfl
      rw [keyForNote, transferPreprocess, h1, h2]
      exact ⟨_, rfl⟩
    · exact ⟨_, rfl⟩)

end Cap.Examples
