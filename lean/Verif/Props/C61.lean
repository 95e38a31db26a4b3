/-
C61: a payment of the reference wallet is accepted, arrives, and returns the change.

status: partial
note: C61_pays_partial: in every world (C59) where the native records held cover the payments and the fee, spend_native succeeds, in both builds and for every randomness whose dummy is fresh; its note alone is accepted by the validator until 2^20 - 1 and the memo signature verifies. C61_payment: whatever it returns spends held native records worth exactly payments + change + fee, and the history goes on. C61_arrives: each recipient's wallet has its record at its position once it scanned the block. C61_settles: the sender's coins are gone and the change is back. FALSE for two payments in a row: C61_twice_false: the wallet does not set aside the records of an unconfirmed payment, so the second note always spends the same first record, and never is accepted together with or after the first one. C61_nobody: a payment without recipients always fails. Totals below 2^127; completeness of the SNARK is assumed.
-/
import Verif.Props.C36
import Verif.Props.C51
import Verif.Props.C60
import Verif.Lemmas.Pay

namespace Cap

open Spec

variable [E : CapEnv]

/-- the record a payment creates for its recipient number `j` -/
def Spec.paid (rng : PaymentRand) (ad : AssetDefinition) (recipients : List (UserPubKey × Amount)) (j : ℕ)
    (ro : RecordOpening) : Prop :=
  ∃ r, recipients[j]? = some r ∧ ro = ⟨r.2, ad, r.1, .unfrozen, rng.blinds j⟩

theorem payOutputs_get {rng : PaymentRand} {ad : AssetDefinition} {recipients : List (UserPubKey × Amount)} {j : ℕ}
    {ro : RecordOpening} : (Wallet.payOutputs rng.blinds ad recipients)[j]? = some ro ↔ paid rng ad recipients j ro := by
  unfold Wallet.payOutputs paid
  rw [List.getElem?_mapIdx]
  cases recipients[j]? with
  | none => simp
  | some r => simp [eq_comm]

theorem payOutputs_total (blinds : ℕ → F) (ad : AssetDefinition) (recipients : List (UserPubKey × Amount)) :
    total (Wallet.payOutputs blinds ad recipients) = (recipients.map (·.2.val)).sum := by
  unfold total Wallet.payOutputs
  congr 1
  refine List.ext_getElem? (fun i => ?_)
  rw [List.getElem?_map, List.getElem?_mapIdx, List.getElem?_map]
  cases recipients[i]? <;> rfl

theorem total_append (l m : List RecordOpening) : total (l ++ m) = total l + total m := by
  unfold total
  rw [List.map_append, List.sum_append]

theorem payOutputs_mem {blinds : ℕ → F} {ad : AssetDefinition} {recipients : List (UserPubKey × Amount)} {o : RecordOpening}
    (ho : o ∈ Wallet.payOutputs blinds ad recipients) : o.asset_def = ad ∧ o.freeze_flag = .unfrozen := by
  unfold Wallet.payOutputs at ho
  rw [List.mem_mapIdx] at ho
  obtain ⟨i, hi, rfl⟩ := ho
  exact ⟨rfl, rfl⟩

theorem sumU128_small {b : Build} : ∀ (l : List Amount) (a : Amount), a.val + (l.map Fin.val).sum < 2 ^ 128 →
    ∃ r, sumU128 b a l = .ok r ∧ r.val = a.val + (l.map Fin.val).sum
  | [], a, _ => ⟨a, rfl, rfl⟩
  | x :: l, a, h => by
    rw [List.map_cons, List.sum_cons] at h
    have h1 : addU128 b a x = .ok ⟨a.val + x.val, by omega⟩ := by
      unfold addU128
      exact dif_pos (by omega)
    obtain ⟨r, h2, h3⟩ := sumU128_small (b := b) l ⟨a.val + x.val, by omega⟩ (by show _ + _ + _ < _; omega)
    refine ⟨r, by rw [sumU128, h1, res_ok_bind, h2], ?_⟩
    rw [h3, List.map_cons, List.sum_cons]
    exact Nat.add_assoc _ _ _

/-- the change of `generate_native` belongs to the owner of the first input -/
theorem generateNative_chg [S : CapExt] {b : Build} {chg_blind : F} {rng : TransferRand} {i0 : TransferNoteInput}
    {is : List TransferNoteInput} {outputs : List RecordOpening} {fee : Amount} {valid_until : U64}
    {pk : TransferProvingKey} {n : TransferNote} {sk : Fr} {chg : RecordOpening}
    (gen : TransferNote.generateNative b chg_blind rng (i0 :: is) outputs fee valid_until pk = .ok (n, sk, chg)) :
    chg.pub_key = i0.ro.pub_key ∧ chg.freeze_flag = .unfrozen ∧ chg.asset_def = AssetDefinition.native := by
  unfold TransferNote.generateNative at gen
  simp only [bind_ok_iff] at gen
  obtain ⟨_, _, _, _, _, _, _, _, _, _, ⟨n', sk'⟩, gen', e⟩ := gen
  cases e
  exact ⟨rfl, rfl, rfl⟩

variable [S : CapExt] {d : Fin 256} {b : Build} {k : UserKeyPair} {h : List Seen} {s : LedgerState} {w w' w'' : Wallet}
  {rng rng' : PaymentRand} {recipients recipients' : List (UserPubKey × Amount)} {fee fee' : Amount}
  {note note' : TransferNote} {memos memos' : List E.AeadCt} {sig sig' : E.Sig}

/-- the dummy record every payment spends along -/
def Spec.dummyOf (rng : PaymentRand) : RecordOpening := RecordOpening.newDummy rng.dummy_key rng.dummy_blind .unfrozen

omit S in
theorem dummyOf_isDummy : (dummyOf rng).isDummy = true := (RecordOpening.isDummy_iff _).2 rfl

/-- the nullifier of that dummy -/
def Spec.dummyNullifier (rng : PaymentRand) : F := ownNullifier rng.dummy_key (dummyOf rng, 0)

omit S in
theorem inputOf_dummy (w : Wallet) (cred : Option ExpirableCredential) :
    w.inputOf d.val s cred rng.dummy_key (dummyOf rng, 0) = ⟨dummyOf rng, Wallet.dummyWitness d.val, rng.dummy_key, none⟩ := by
  unfold Wallet.inputOf
  rw [if_pos dummyOf_isDummy]

omit S in
theorem inputOf_real (w : Wallet) (cred : Option ExpirableCredential) {x : RecordOpening × U64} {key : UserKeyPair}
    (hx : x.1.isDummy = false) : w.inputOf d.val s cred key x = ⟨x.1, lookup d.val s x.2, w.keypair, cred⟩ := by
  unfold Wallet.inputOf
  rw [if_neg (by simp [hx])]

omit S in
theorem native_not_dummy {ro : RecordOpening} (h : ro.asset_def = AssetDefinition.native) : ro.isDummy = false := by
  rw [← Bool.not_eq_true, RecordOpening.isDummy_iff, h]
  exact fun e => nativeDef_ne_dummyDef e

theorem held_spendable (world : World d b k h s w) {x : RecordOpening × U64} (holds : w.Holds x)
    (hx : x.1.isDummy = false) (cred : Option ExpirableCredential) (key : UserKeyPair) :
    Spendable d.val (treeRoot d.val s.leaves) (w.inputOf d.val s cred key x) := by
  obtain ⟨-, h1, h2, h3⟩ := C59_sound world x holds
  rw [inputOf_real w cred hx]
  refine ⟨treePath_length _ _ _, by rw [(worldOk world).key]; exact h1, h2, fun _ => ⟨rfl, ?_⟩, fun e => ?_⟩
  · exact treePath_root (worldOk world).room h3
  · exact absurd ((RecordOpening.isDummy_iff _).2 e) (by simp [hx])

omit S in
theorem dummy_spendable (root : F) (w : Wallet) (cred : Option ExpirableCredential) :
    Spendable d.val root (w.inputOf d.val s cred rng.dummy_key (dummyOf rng, 0)) := by
  rw [inputOf_dummy]
  exact ⟨by simp [Wallet.dummyWitness], rfl, rfl, fun h => absurd rfl h, fun _ => rfl⟩

/-- **Payments are accepted.** -/
theorem C61_pays_partial (complete : SnarkComplete) (batch : SnarkBatch) (world : World d b k h s w) (apart : Apart k h)
    (genuine : ∀ x, w.Holds x → x.1.asset_def.code = nativeCode → x.1.asset_def = AssetDefinition.native)
    {coins : List (RecordOpening × U64)} (once : coins.Nodup)
    (all : ∀ x, x ∈ coins ↔ w.Holds x ∧ x.1.asset_def.code = nativeCode) (some_coin : coins ≠ [])
    (small : total (coins.map (·.1)) < 2 ^ 127) (recip : recipients ≠ [])
    (covers : (recipients.map (·.2.val)).sum + fee.val ≤ total (coins.map (·.1)))
    (keys : ∀ n, 2 ≤ n → n ≤ coins.length + 1 → ∃ x, transferPreprocess n (recipients.length + 1) d = .ok x)
    (encrypts : ∀ j ro, paid rng AssetDefinition.native recipients j ro → ∃ c, ReceiverMemo.fromRo (rng.memos j) ro [] = .ok c)
    (dummy : dummyNullifier rng ∉ s.nullifiers ∧ ∀ x, w.Holds x → ownNullifier k x ≠ dummyNullifier rng) :
    ∃ w' note memos sig, w.spendNative b d s rng recipients fee = .ok (w', note, memos, sig) ∧ note.aux_info.fee = fee ∧
      TransactionNote.verifyReceiverMemosSignature (.transfer note) memos sig = .ok () ∧
      ∀ time : U64, time.val < 2 ^ 20 → validateTxnsBatch d s [.transfer note] time = .ok () := by
  obtain ⟨nd, mem⟩ := (worldOk world).ok.get nativeCode
  have perm : ((mapGet nativeCode w.unspent).getD []).Perm coins :=
    (List.perm_ext_iff_of_nodup nd once).2 (fun x => (mem x).trans (all x).symm)
  obtain ⟨l, hl⟩ : ∃ l, mapGet nativeCode w.unspent = some l := by
    cases hg : mapGet nativeCode w.unspent with
    | some l => exact ⟨l, rfl⟩
    | none =>
      rw [hg] at perm
      exact absurd perm.nil_eq.symm some_coin
  rw [hl, Option.getD_some] at nd mem perm
  have htot : total (l.map (·.1)) = total (coins.map (·.1)) := ((perm.map _).map _).sum_eq
  have hsum : ((recipients.map (·.2)).map Fin.val).sum = (recipients.map (·.2.val)).sum := by rw [List.map_map]; rfl
  obtain ⟨t1, h1, ht1⟩ := sumU128_small (b := b) (recipients.map (·.2)) 0 (by rw [hsum]; show 0 + _ < _; omega)
  have ht1v : t1.val = (recipients.map (·.2.val)).sum := by
    rw [ht1, hsum]
    exact Nat.zero_add _
  have h2 : addU128 b t1 fee = .ok ⟨t1.val + fee.val, by omega⟩ := by
    unfold addU128
    exact dif_pos (by omega)
  obtain ⟨pre, post, c, g1, g2, g3, g4, -⟩ := Wallet.collectRecords_enough (b := b) (amount := ⟨t1.val + fee.val, by omega⟩)
    (l := l) (cur := 0) (acc := [])
    (by
      rintro rfl
      exact some_coin perm.nil_eq.symm)
    (by show 0 + _ < _; omega) (by show _ ≤ 0 + _; show t1.val + _ ≤ _; omega)
  rw [List.nil_append] at g3
  have g4' : (recipients.map (·.2.val)).sum + fee.val ≤ total (pre.map (·.1)) := by
    have : (0 : Amount).val = 0 := rfl
    dsimp only at g4
    omega
  have g5 : total (pre.map (·.1)) ≤ total (coins.map (·.1)) := by
    rw [← htot, g2, List.map_append, total_append]
    omega
  have hheld : ∀ x ∈ pre, w.Holds x ∧ x.1.asset_def = AssetDefinition.native := by
    intro x hx
    obtain ⟨m1, m2⟩ := (mem x).1 (by rw [g2]; exact List.mem_append_left _ hx)
    exact ⟨m1, genuine x m1 m2⟩
  have h3 : w.findRecords b nativeCode ⟨t1.val + fee.val, by omega⟩ = .ok (pre, c) := by
    unfold Wallet.findRecords
    rw [hl]
    exact g3
  have h4 := Wallet.prepareInputs_intro (w := w) (d := d.val) (s := s) (cred := none) (key := rng.dummy_key)
    (l := pre ++ [(dummyOf rng, 0)]) (by
      intro x hx hd
      rcases List.mem_append.1 hx with hx | hx
      · exact (List.getElem?_eq_some_iff.1 (C59_sound world x (hheld x hx).1).2.2.2).1
      · rw [List.mem_singleton] at hx
        rw [hx, dummyOf_isDummy] at hd
        cases hd)
  set inputs := (pre ++ [(dummyOf rng, 0)]).map (w.inputOf d.val s none rng.dummy_key) with hin
  set outputs := Wallet.payOutputs rng.blinds AssetDefinition.native recipients with hout
  have hlen : outputs.length = recipients.length := Wallet.payOutputs_length _ _ _
  have hilen : inputs.length = pre.length + 1 := by simp [hin]
  obtain ⟨⟨pk, vk⟩, h5⟩ := keys inputs.length (by
    have := List.length_pos_of_ne_nil g1
    omega) (by
    have := perm.length_eq
    rw [g2, List.length_append] at this
    omega)
  have hro : inputs.map (·.ro) = pre.map (·.1) ++ [dummyOf rng] := by
    rw [hin, List.map_map, List.map_append, List.map_singleton]
    congr 1
    · refine List.map_congr_left (fun x hx => ?_)
      show (w.inputOf d.val s none rng.dummy_key x).ro = _
      rw [inputOf_real w none (native_not_dummy (hheld x hx).2)]
    · show [(w.inputOf d.val s none rng.dummy_key (dummyOf rng, 0)).ro] = _
      rw [inputOf_dummy]
  have hnul : inputs.map nullifierOf = pre.map (ownNullifier k) ++ [dummyNullifier rng] := by
    rw [hin, List.map_map, List.map_append, List.map_singleton]
    congr 1
    · refine List.map_congr_left (fun x hx => ?_)
      show nullifierOf (w.inputOf d.val s none rng.dummy_key x) = _
      rw [inputOf_real w none (native_not_dummy (hheld x hx).2), ← (worldOk world).key]
      rfl
    · show [nullifierOf (w.inputOf d.val s none rng.dummy_key (dummyOf rng, 0))] = _
      rw [inputOf_dummy]
      rfl
  have htin : total (inputs.map (·.ro)) = total (pre.map (·.1)) := by
    rw [hro, total_append]
    simp [total, dummyOf, RecordOpening.newDummy]
  have hnd : (pre.map (ownNullifier k) ++ [dummyNullifier rng]).Nodup := by
    rw [List.nodup_append]
    refine ⟨?_, by simp, ?_⟩
    · rw [List.nodup_map_iff_inj_on (by rw [g2] at nd; exact (List.nodup_append.1 nd).1)]
      intro x hx y hy e
      exact apart.among x y (C59_sound world x (hheld x hx).1).1 (C59_sound world y (hheld y hy).1).1 e
    · intro a ha e he
      rw [List.mem_singleton] at he
      obtain ⟨x, hx, rfl⟩ := List.mem_map.1 ha
      rw [he]
      exact dummy.2 x (hheld x hx).1
  have pay : NativePayment inputs.length (recipients.length + 1) d.val (treeRoot d.val s.leaves) inputs outputs fee := by
    refine ⟨rfl, by rw [hlen], ?_, ?_, fun o ho => payOutputs_mem ho, ?_, by rw [hnul]; exact hnd, ?_, by rw [htin]; omega⟩
    · cases hp : pre with
      | nil => exact absurd hp g1
      | cons x pre' =>
        have hx : x ∈ pre := by rw [hp]; exact List.mem_cons_self
        refine ⟨_, _, by rw [hin, hp]; rfl, ?_⟩
        rw [inputOf_real w none (native_not_dummy (hheld x hx).2)]
        exact (hheld x hx).2
    · intro i hi
      have : i.ro ∈ inputs.map (·.ro) := List.mem_map_of_mem hi
      rw [hro] at this
      rcases List.mem_append.1 this with hm | hm
      · obtain ⟨x, hx, he⟩ := List.mem_map.1 hm
        rw [← he]
        exact .inl (hheld x hx).2
      · rw [List.mem_singleton] at hm
        rw [hm]
        exact .inr rfl
    · intro i hi
      rw [hin] at hi
      obtain ⟨x, hx, rfl⟩ := List.mem_map.1 hi
      rcases List.mem_append.1 hx with hx | hx
      · exact held_spendable world (hheld x hx).1 (native_not_dummy (hheld x hx).2) _ _
      · rw [List.mem_singleton] at hx
        rw [hx]
        exact dummy_spendable _ _ _
    · rw [htin, hout, payOutputs_total]
      exact g4'
  obtain ⟨n, sk, chg, gen, -, p2, p3, p4, p5⟩ := C55_native_partial complete h5 pay
    (valid_until := Wallet.unexpiredValidUntil) (by decide) b rng.chg_blind rng.note
  obtain ⟨ms, h7⟩ := Wallet.payMemos_intro (memos := rng.memos) (l := outputs) (i := 0) (by
    intro j ro hj
    rw [Nat.zero_add]
    exact encrypts j ro (payOutputs_get.1 hj))
  have gen' := generateNative_generate gen
  obtain ⟨wit, pub, tg⟩ := TransferNote.generate_ok.1 gen'
  have hms : ms ≠ [] := by
    have := (Wallet.payMemos_ok h7).1
    rintro rfl
    rw [List.length_nil, hlen] at this
    exact recip (List.length_eq_zero_iff.1 this.symm)
  obtain ⟨sig, q1, q2⟩ := C36_sign_verify sk (.transfer n) ms
    (by show n.aux_info.txn_memo_ver_key = _; rw [tg.ver_key, tg.sign_key]) hms
  refine ⟨{ w.markAll (pre ++ [(dummyOf rng, 0)]) with
      changes := setInsert chg (w.markAll (pre ++ [(dummyOf rng, 0)])).changes }, n, ms, sig, ?_, p2, q2, fun time ht => ?_⟩
  · unfold Wallet.spendNative
    simp only [bind_ok_iff]
    refine ⟨_, h1, _, h2, _, h3, _, h4, (pk, vk), ?_, _, gen, _, h7, _, q1, rfl⟩
    rw [hlen, h5]
    rfl
  · have hle : time ≤ Wallet.unexpiredValidUntil := by
      show time.val ≤ 2 ^ 20 - 1
      omega
    have hv := TransferNote.verify_ok.1 (p5 time hle)
    have := validate_made complete batch (d := d) (s := s) (ts := [⟨.transfer n, _, _⟩]) (time := time) (by simp)
      (by
        intro t ht
        rw [List.mem_singleton] at ht
        rw [ht]
        exact Made.transfer h5 gen')
      (by
        intro t ht
        rw [List.mem_singleton] at ht
        rw [ht]
        show time ≤ n.aux_info.valid_until
        rw [tg.note_valid]
        exact hle)
      (by
        intro t ht
        rw [List.mem_singleton] at ht
        rw [ht]
        show n.aux_info.merkle_root ∈ _
        rw [← hv.1]
        exact (worldOk world).root)
      (by
        rw [List.flatMap_cons, List.flatMap_nil, List.append_nil]
        show n.inputs_nullifiers.Nodup
        rw [p3, hnul]
        exact hnd)
      (by
        intro t ht
        rw [List.mem_singleton] at ht
        rw [ht]
        show ∀ x ∈ n.inputs_nullifiers, _
        rw [p3, hnul]
        intro x hx
        rcases List.mem_append.1 hx with hx | hx
        · obtain ⟨y, hy, rfl⟩ := List.mem_map.1 hx
          exact C59_fresh world apart y (hheld y hy).1
        · rw [List.mem_singleton] at hx
          rw [hx]
          exact dummy.1)
    exact this

/-- What a payment consists of: the records it spends, its change, and the note and memos that are published. -/
structure Spec.Payment (k : UserKeyPair) (w : Wallet) (rng : PaymentRand) (recipients : List (UserPubKey × Amount))
    (fee : Amount) (coins : List (RecordOpening × U64)) (chg : RecordOpening) (note : TransferNote) (memos : List E.AeadCt) :
    Prop where
  some_coin : coins ≠ []
  once : coins.Nodup
  held : ∀ x ∈ coins, w.Holds x ∧ x.1.asset_def = AssetDefinition.native
  value : total (coins.map (·.1)) = (recipients.map (·.2.val)).sum + chg.amount.val + fee.val
  fee_eq : note.aux_info.fee = fee
  change : chg.asset_def = AssetDefinition.native ∧ chg.pub_key = k.pubKey ∧ chg.freeze_flag = .unfrozen ∧
    chg.blind = rng.chg_blind
  nullifiers : note.inputs_nullifiers = coins.map (ownNullifier k) ++ [dummyNullifier rng]
  first : note.output_commitments[0]? = some chg.commitment
  rest : ∀ j ro, paid rng AssetDefinition.native recipients j ro → note.output_commitments[j + 1]? = some ro.commitment ∧
    ∃ c, memos[j]? = some c ∧ ReceiverMemo.fromRo (rng.memos j) ro [] = .ok c
  lengths : note.output_commitments.length = recipients.length + 1 ∧ memos.length = recipients.length

theorem shelf_holds {l : List (RecordOpening × U64)} (world : World d b k h s w) (code : AssetCode)
    (hl : mapGet code w.unspent = some l) :
    l.Nodup ∧ ∀ x, x ∈ l ↔ w.Holds x ∧ x.1.asset_def.code = code := by
  have := (worldOk world).ok.get code
  rwa [hl, Option.getD_some] at this

/-- the records `spend_native` took are native records -/
theorem nativeSpend_coins {sk : Fr} {chg : RecordOpening} {x : RecordOpening × U64} {pre post : List (RecordOpening × U64)}
    {inputs : List TransferNoteInput} {keys : TransferProvingKey × TransferVerifyingKey}
    (world : World d b k h s w)
    {s' : LedgerState} {w0 : Wallet} (same : w0.unspent = w.unspent)
    (sp : Wallet.NativeSpend b w0 d s' rng recipients fee w' note memos sig sk chg x pre post inputs keys) :
    ∀ y ∈ x :: pre, w.Holds y ∧ y.1.asset_def = AssetDefinition.native := by
  intro y hy
  have hl := sp.shelf
  rw [same] at hl
  obtain ⟨h1, h2⟩ := ((shelf_holds world nativeCode hl).2 y).1 (List.mem_append_left post hy)
  refine ⟨h1, ?_⟩
  obtain ⟨-, h3, -⟩ := C24_native sp.gen
  have hne : y.1.asset_def ≠ AssetDefinition.dummy := by
    intro e
    rw [e] at h2
    exact native_ne_dummy h2.symm
  have hnd : y.1.isDummy = false := by
    rw [← Bool.not_eq_true, RecordOpening.isDummy_iff]
    exact hne
  have := h3 (w0.inputOf d.val s' none rng.dummy_key y) (by
    rw [sp.inputs_eq]
    exact List.mem_map_of_mem (List.mem_append_left _ hy))
  rw [inputOf_real w0 none hnd] at this
  rcases this with h | h
  · exact h
  · exact absurd h.1 hne

/-- **What a payment does.**  It spends held records worth the payments, the fee and the change; it publishes the change
and the records of the recipients, with memos for the latter; the wallet goes on holding the same records until the
payment is on the ledger. -/
theorem C61_payment (world : World d b k h s w)
    (ok : w.spendNative b d s rng recipients fee = .ok (w', note, memos, sig)) :
    ∃ coins chg, Payment k w rng recipients fee coins chg note memos ∧
      TransactionNote.verifyReceiverMemosSignature (.transfer note) memos sig = .ok () ∧
      World d b k (h ++ coins.map .spending ++ [.expecting chg]) s w' ∧ (∀ x, w'.Holds x ↔ w.Holds x) := by
  obtain ⟨sk, chg, x, pre, post, inputs, keys, sp⟩ := Wallet.spendNative_ok ok
  have coins := nativeSpend_coins world rfl sp
  have hreal : ∀ y ∈ x :: pre, w.inputOf d.val s none rng.dummy_key y = ⟨y.1, lookup d.val s y.2, k, none⟩ := by
    intro y hy
    rw [inputOf_real w none (native_not_dummy (coins y hy).2), (worldOk world).key]
  obtain ⟨v1, -, -, -, v5, v6, v7, -⟩ := C24_native sp.gen
  have gen' := generateNative_generate sp.gen
  have hin : inputs = (x :: pre).map (fun y => ⟨y.1, lookup d.val s y.2, k, none⟩) ++
      [⟨dummyOf rng, Wallet.dummyWitness d.val, rng.dummy_key, none⟩] := by
    rw [sp.inputs_eq, List.map_append, List.map_singleton]
    congr 1
    · exact List.map_congr_left hreal
    · exact congrArg (fun x => [x]) (inputOf_dummy w none)
  have hchg : chg.pub_key = k.pubKey := by
    have gen := sp.gen
    rw [hin] at gen
    rw [(generateNative_chg gen).1]
    exact (C59_sound world x (coins x List.mem_cons_self).1).2.1
  have hval : total (inputs.map (·.ro)) = total ((x :: pre).map (·.1)) := by
    rw [hin, List.map_append, total_append, List.map_map]
    have : total (List.map (·.ro) [(⟨dummyOf rng, Wallet.dummyWitness d.val, rng.dummy_key, none⟩ : TransferNoteInput)]) = 0 := by
      simp [total, dummyOf, RecordOpening.newDummy]
    rw [this]
    rfl
  have hmem := Wallet.payMemos_ok sp.memos_ok
  have hout := transfer_commitments gen'
  obtain ⟨wit, pub, tg⟩ := TransferNote.generate_ok.1 gen'
  have hne : memos ≠ [] := by
    rintro rfl
    exact absurd sp.sig_ok (by rw [(C36_empty (E := E) sk (.transfer note) sig).1]; exact fun h => nomatch h)
  refine ⟨x :: pre, chg, ⟨by simp, ?_, coins, ?_, ?_, ⟨v5, hchg, v6, v7⟩, ?_, ?_, ?_, ?_⟩, ?_, ?_, ?_⟩
  · have := (shelf_holds world nativeCode sp.shelf).1
    exact (List.nodup_append.1 this).1
  · rw [← hval, v1, payOutputs_total]
  · have h1 := (generated_total gen').1
    rw [total_cons] at h1
    exact Fin.ext (by omega)
  · rw [transfer_nullifiers gen', hin, List.map_append, List.map_map]
    rfl
  · rw [hout]
    rfl
  · intro j ro hj
    have hj' := payOutputs_get.2 hj
    refine ⟨?_, ?_⟩
    · rw [hout, List.map_cons, List.getElem?_cons_succ, List.getElem?_map, hj']
      rfl
    · obtain ⟨c, c1, c2⟩ := hmem.2 j ro hj'
      rw [Nat.zero_add] at c2
      exact ⟨c, c1, c2⟩
  · refine ⟨?_, ?_⟩
    · rw [hout, List.length_map, List.length_cons, Wallet.payOutputs_length]
    · rw [hmem.1, Wallet.payOutputs_length]
  · obtain ⟨sig', q1, q2⟩ := C36_sign_verify sk (.transfer note) memos
      (by show note.aux_info.txn_memo_ver_key = _; rw [tg.ver_key, tg.sign_key]) hne
    rw [sp.sig_ok] at q1
    cases q1
    exact q2
  · have hw := Wallet.markAll_world (x :: pre) world (fun y hy => (coins y hy).1)
    rw [List.filter_eq_self.2 (fun y hy => by rw [native_not_dummy (coins y hy).2]; rfl)] at hw
    rw [sp.wallet]
    exact .expecting hw hchg v6
  · intro y
    rw [sp.wallet]
    show (∃ e ∈ (w.markAll (x :: pre)).unspent, _) ↔ _
    rw [(w.markAll_rest (x :: pre)).1]
    rfl

omit E in
theorem Spec.At.inside [E : CapEnv] [S : CapExt] {h : List Seen} {t : TransactionNote} {memos : List E.AeadCt} {pos : ℕ} (a : At h t memos pos) :
    pos + t.outputCommitments.length ≤ records h := by
  obtain ⟨before, txns, blind, who, time, after, earlier, later, rfl, rfl, rfl⟩ := a
  unfold records
  rw [List.map_append, List.sum_append, List.map_cons, List.sum_cons, Seen.size, outputs, outputs, List.map_append,
    List.sum_append, List.map_cons, List.sum_cons]
  dsimp only
  omega

/-- **The payment arrives.**  When the note is in a block that was scanned together with its memos by a wallet of the
recipient, that wallet has the record, or the record has been spent. -/
theorem C61_arrives {w0 : Wallet} {coins : List (RecordOpening × U64)} {chg : RecordOpening}
    (pay : Payment k w0 rng recipients fee coins chg note memos)
    {d' : Fin 256} {b' : Build} {k' : UserKeyPair} {h' : List Seen} {s' : LedgerState} {w' : Wallet}
    (world : World d' b' k' h' s' w') {pos j : ℕ} {amount : Amount} (there : At h' (.transfer note) memos pos)
    (mine : recipients[j]? = some (k'.pubKey, amount)) :
    ∃ ro uid, ro.amount = amount ∧ ro.asset_def = AssetDefinition.native ∧ ro.pub_key = k'.pubKey ∧
      (uid : U64).val = pos + 1 + j ∧
      (w'.Holds (ro, uid) ∨ ownNullifier k' (ro, uid) ∈ s'.nullifiers) := by
  have hp : paid rng AssetDefinition.native recipients j ⟨amount, AssetDefinition.native, k'.pubKey, .unfrozen, rng.blinds j⟩ :=
    ⟨_, mine, rfl⟩
  obtain ⟨h1, c, h2, h3⟩ := pay.rest j _ hp
  have hin := there.inside
  have hlt := (List.getElem?_eq_some_iff.1 h1).1
  have hsz := (worldOk world).size
  have hsm := (worldOk world).small
  have hlen : (TransactionNote.transfer note).outputCommitments.length = note.output_commitments.length := rfl
  refine ⟨_, ⟨pos + 1 + j, by omega⟩, rfl, rfl, rfl, rfl,
    C59_memo world there h1 h2 (C35_round_trip _ _ _ _ _ rfl h3) rfl rfl⟩

/-- **The payment is settled.**  Once the note is in a block that the sender's wallet scanned, the records it paid with are
gone from the wallet, and the change has come back (or has been spent in turn). -/
theorem C61_settles {w0 : Wallet} {coins : List (RecordOpening × U64)} {chg : RecordOpening} {after : List Seen}
    (pay : Payment k w0 rng recipients fee coins chg note memos)
    (world : World d b k (h ++ coins.map .spending ++ .expecting chg :: after) s w)
    (apart : Apart k (h ++ coins.map .spending ++ .expecting chg :: after))
    (no_twin : ∀ chg', .expecting chg' ∈ h ++ coins.map .spending ++ .expecting chg :: after →
      chg'.commitment = chg.commitment → chg' = chg)
    {txns : List (TransactionNote × List E.AeadCt)} {blind : F} {who : UserPubKey} {time : U64}
    (later : .block txns blind who time ∈ after) (there : (.transfer note, memos) ∈ txns) :
    (∀ x ∈ coins, ¬ w.Holds x) ∧ ∃ uid, w.Holds (chg, uid) ∨ ownNullifier k (chg, uid) ∈ s.nullifiers := by
  refine ⟨fun x hx => ?_, ?_⟩
  · obtain ⟨l1, l2, rfl⟩ := List.append_of_mem later
    have e : h ++ coins.map .spending ++ .expecting chg :: (l1 ++ .block txns blind who time :: l2) =
        (h ++ coins.map .spending ++ .expecting chg :: l1) ++ .block txns blind who time :: l2 := by simp
    rw [e] at world apart
    refine C59_gone world apart x there ?_
    show _ ∈ note.inputs_nullifiers
    rw [pay.nullifiers]
    exact List.mem_append_left _ (List.mem_map_of_mem hx)
  · obtain ⟨t, m, pos, uid, -, -, -, h4⟩ := C59_change world rfl no_twin later there pay.first
    exact ⟨uid, h4⟩

/-- **The property as stated is false**: of two payments made one after the other, without a block in between, only one
can ever be on the ledger, because both spend the wallet's first native record. -/
theorem C61_twice_false (world : World d b k h s w)
    (first : w.spendNative b d s rng recipients fee = .ok (w', note, memos, sig)) {s2 : LedgerState}
    (second : w'.spendNative b d s2 rng' recipients' fee' = .ok (w'', note', memos', sig')) :
    (∃ x ∈ note.inputs_nullifiers, x ∈ note'.inputs_nullifiers) ∧
    (∀ (d' : Fin 256) (s' : LedgerState) (time : U64) (l1 l2 l3 : List TransactionNote),
      validateTxnsBatch d' s' (l1 ++ .transfer note :: l2 ++ .transfer note' :: l3) time ≠ .ok ()) ∧
    ∀ (d' : Fin 256) (s1 s1' : LedgerState) (block : MockBlock) (txns : List TransactionNote) (time : U64),
      .transfer note ∈ block.txns → s1.insertBlock d'.val block = .ok s1' → .transfer note' ∈ txns →
      validateTxnsBatch d' s1' txns time ≠ .ok () := by
  obtain ⟨sk, chg, x, pre, post, inputs, keys, sp⟩ := Wallet.spendNative_ok first
  obtain ⟨sk', chg', x', pre', post', inputs', keys', sp'⟩ := Wallet.spendNative_ok second
  have hun : w'.unspent = w.unspent := by
    rw [sp.wallet]
    exact (w.markAll_rest (x :: pre)).1
  have hkey : w'.keypair = k := by
    rw [sp.wallet, ← (worldOk world).key]
    exact (w.markAll_rest (x :: pre)).2.1
  have hx : x' = x := by
    have h1 := sp'.shelf
    rw [hun, sp.shelf] at h1
    simp only [List.cons_append, Option.some.injEq, List.cons.injEq] at h1
    exact h1.1.symm
  have hnull : ∀ {s0 : LedgerState} {w0 w1 : Wallet} {rng0 : PaymentRand} {rec0 : List (UserPubKey × Amount)} {fee0 : Amount}
      {note0 : TransferNote} {memos0 : List E.AeadCt} {sig0 : E.Sig} {sk0 : Fr} {chg0 : RecordOpening}
      {y : RecordOpening × U64} {pre0 post0 : List (RecordOpening × U64)} {inputs0 : List TransferNoteInput}
      {keys0 : TransferProvingKey × TransferVerifyingKey}, w0.unspent = w.unspent → w0.keypair = k →
      Wallet.NativeSpend b w0 d s0 rng0 rec0 fee0 w1 note0 memos0 sig0 sk0 chg0 y pre0 post0 inputs0 keys0 →
      ownNullifier k y ∈ note0.inputs_nullifiers := by
    intro s0 w0 w1 rng0 rec0 fee0 note0 memos0 sig0 sk0 chg0 y pre0 post0 inputs0 keys0 h1 h2 sp0
    have hy := nativeSpend_coins world h1 sp0 y List.mem_cons_self
    rw [transfer_nullifiers (generateNative_generate sp0.gen), sp0.inputs_eq, List.cons_append, List.map_cons, List.map_cons,
      inputOf_real w0 none (native_not_dummy hy.2), h2]
    exact List.mem_cons_self
  have n1 := hnull rfl (worldOk world).key sp
  have n2 := hnull hun hkey sp'
  rw [hx] at n2
  refine ⟨⟨_, n1, n2⟩, fun d' s' time l1 l2 l3 hv => ?_, fun d' s1 s1' block txns time hm hi ht hv => ?_⟩
  · obtain ⟨-, hnd, -⟩ := validateTxnsBatch_ok hv
    rw [List.flatMap_append, List.flatMap_append, List.flatMap_cons, List.flatMap_cons] at hnd
    have := (List.nodup_append.1 hnd).2.2
    exact this _ (List.mem_append_right _ (List.mem_append_left _ n1)) _ (List.mem_append_left _ n2) rfl
  · obtain ⟨-, -, hf, -⟩ := validateTxnsBatch_ok hv
    obtain ⟨fee, -, -, -, hn, -⟩ := LedgerState.insertBlock_ok hi
    exact hf _ (List.mem_flatMap.2 ⟨_, ht, n2⟩) ((hn _).2 (.inl (List.mem_flatMap.2 ⟨_, hm, n1⟩)))

/-- **A payment to nobody fails**, because an empty list of memos cannot be signed. -/
theorem C61_nobody (r) : w.spendNative b d s rng [] fee ≠ .ok r := by
  obtain ⟨w', note, memos, sig⟩ := r
  intro ok
  obtain ⟨sk, chg, x, pre, post, inputs, keys, sp⟩ := Wallet.spendNative_ok ok
  have h1 := sp.memos_ok
  have h2 := sp.sig_ok
  cases h1
  cases h2

end Cap

namespace Cap.Examples

open Toy Spec

/-! Alice has a native coin worth 100.  She pays 60 to Bob, and then 20 to Bob, with a fee of 3 each. -/

/-- the randomness of a payment -/
def payRng : PaymentRand :=
  { dummy_key := bob, dummy_blind := (91 : ZMod p), blinds := fun j => ((92 + j : ℕ) : ZMod p), chg_blind := (90 : ZMod p),
    note := rng, memos := fun j => j }

/-- Alice's wallet when she has been handed her coin -/
def walletA : Wallet := (Wallet.new alice).addRecordOpening feeRec 0

theorem worldA : World 2 .debug alice (seen0 ++ [.told feeRec 0]) led0 walletA :=
  (start_world alice).told rfl rfl rfl (by simp [led0])

theorem walletA_holds (x : RecordOpening × U64) : walletA.Holds x ↔ x = (feeRec, 0) := by
  unfold walletA
  rw [Wallet.holds_add]
  refine or_iff_left ?_
  rintro ⟨e, he, -⟩
  cases he

/-- before there is a block, Alice knows of her coin only -/
theorem coin_only {more : List Seen} (hm : ∀ e ∈ more, (∃ x, e = .spending x) ∨ ∃ c, e = .expecting c) :
    Apart alice (seen0 ++ [.told feeRec 0] ++ more) := by
  have hat : ∀ {t : TransactionNote} {memos : List Toy.E.AeadCt} {pos : ℕ},
      ¬ At (seen0 ++ [.told feeRec 0] ++ more) t memos pos := by
    rintro t memos pos ⟨before, txns, blind, who, time, after, -, -, h1, -⟩
    have : Seen.block txns blind who time ∈ seen0 ++ [.told feeRec 0] ++ more := by rw [h1]; simp
    rcases List.mem_append.1 this with h | h
    · simp [seen0] at h
    · rcases hm _ h with ⟨x, h⟩ | ⟨c, h⟩ <;> cases h
  have hr : ∀ x, Received alice (seen0 ++ [.told feeRec 0] ++ more) x → x = (feeRec, 0) := by
    intro x h
    cases h with
    | told mem =>
      rcases List.mem_append.1 mem with h | h
      · simp only [seen0, List.cons_append, List.nil_append, List.mem_cons, List.not_mem_nil, or_false, reduceCtorEq, false_or,
          Seen.told.injEq] at h
        rw [h.1, h.2]
      · rcases hm _ h with ⟨x, h⟩ | ⟨c, h⟩ <;> cases h
    | memo a => exact absurd a hat
    | change _ a => exact absurd a hat
  exact ⟨fun x y hx hy _ => by rw [hr x hx, hr y hy], fun x _ t memos pos a => absurd a hat⟩

theorem dummy_apart : ownNullifier alice (feeRec, 0) ≠ dummyNullifier payRng := by decide +kernel

theorem toyMemo (rand : ℕ) (who : UserPubKey) (a : Amount) (blind : F) (hw : who = bob.pubKey) :
    ∃ c, ReceiverMemo.fromRo rand ⟨a, AssetDefinition.native, who, .unfrozen, blind⟩ [] = .ok c := by
  subst hw
  exact ⟨_, rfl⟩

/-- Alice can pay any amount up to 97, from any wallet with the same records. -/
theorem alicePays {h : List Seen} {w : Wallet} (world : World 2 .debug alice h led0 w) (apart : Apart alice h)
    (hold : ∀ x, w.Holds x ↔ x = (feeRec, 0)) (a : Amount) (ha : a.val ≤ 97) :
    ∃ w' note memos sig, w.spendNative .debug 2 led0 payRng [(bob.pubKey, a)] 3 = .ok (w', note, memos, sig) ∧
      note.aux_info.fee = 3 ∧ TransactionNote.verifyReceiverMemosSignature (.transfer note) memos sig = .ok () ∧
      ∀ time : U64, time.val < 2 ^ 20 → validateTxnsBatch 2 led0 [.transfer note] time = .ok () := by
  refine C61_pays_partial Toy.complete Toy.batch world apart (coins := [(feeRec, 0)]) ?_ (by simp) ?_ (by simp) ?_ (by simp) ?_ ?_ ?_ ?_
  · intro x hx _
    rw [(hold x).1 hx]
    rfl
  · intro x
    rw [List.mem_singleton, hold]
    exact ⟨fun h => ⟨h, by rw [h]; rfl⟩, fun h => h.1⟩
  · show (100 : ℕ) + 0 < 2 ^ 127
    norm_num
  · show a.val + 0 + 3 ≤ 100 + 0
    omega
  · intro n h1 h2
    simp only [List.length_cons, List.length_nil] at h2
    obtain rfl : n = 2 := by omega
    exact ⟨_, rfl⟩
  · rintro j ro ⟨r, hr, rfl⟩
    refine toyMemo _ _ _ _ ?_
    have := List.mem_of_getElem? hr
    rw [List.mem_singleton] at this
    rw [this]
  · refine ⟨by simp [led0], fun x hx => ?_⟩
    rw [(hold x).1 hx]
    exact dummy_apart

/-- The first payment is accepted; the second one is made too, and the two exclude each other. -/
example : ∃ w' note memos sig w'' note' memos' sig',
    walletA.spendNative .debug 2 led0 payRng [(bob.pubKey, 60)] 3 = .ok (w', note, memos, sig) ∧
    w'.spendNative .debug 2 led0 payRng [(bob.pubKey, 20)] 3 = .ok (w'', note', memos', sig') ∧
    validateTxnsBatch 2 led0 [.transfer note] 5 = .ok () ∧ validateTxnsBatch 2 led0 [.transfer note'] 5 = .ok () ∧
    validateTxnsBatch 2 led0 [.transfer note, .transfer note'] 5 ≠ .ok () := by
  obtain ⟨w', note, memos, sig, h1, -, -, h2⟩ := alicePays worldA
    (by simpa using coin_only (more := []) (by simp)) walletA_holds 60 (by decide)
  obtain ⟨coins, chg, -, -, h3, h4⟩ := C61_payment worldA h1
  obtain ⟨w'', note', memos', sig', h5, -, -, h6⟩ := alicePays h3
    (by
      rw [List.append_assoc]
      refine coin_only (fun e he => ?_)
      rcases List.mem_append.1 he with he | he
      · obtain ⟨x, -, rfl⟩ := List.mem_map.1 he
        exact .inl ⟨x, rfl⟩
      · rw [List.mem_singleton] at he
        exact .inr ⟨_, he⟩)
    (fun x => (h4 x).trans (walletA_holds x)) 20 (by decide)
  exact ⟨w', note, memos, sig, w'', note', memos', sig', h1, h5, h2 5 (by decide), h6 5 (by decide),
    (C61_twice_false worldA h1 h5).2.1 2 led0 5 [] [] []⟩

theorem two_out {note : TransferNote} (h : note.output_commitments.length = 2) :
    ∃ s', led0.insertBlock 2 ⟨[.transfer note], (47 : ZMod p), bob.pubKey⟩ = .ok s' := by
  have hins := (C52_partial (d := 2) (b := ⟨[.transfer note], (47 : ZMod p), bob.pubKey⟩) (s := led0)
    (show Room 2 led0 0 from ⟨by decide, by decide⟩)).1.2 ⟨by
      show Room 2 led0 ((note.output_commitments.length + 0) + 1)
      rw [h]
      exact ⟨by decide, by decide⟩, by simp⟩
  exact ⟨_, C52_same.2 (Prod.ext rfl hins)⟩

/-- the change of the first payment, and what Bob gets -/
def chgA : RecordOpening := ⟨37, AssetDefinition.native, alice.pubKey, .unfrozen, (90 : ZMod p)⟩
def bobs60 : RecordOpening := ⟨60, AssetDefinition.native, bob.pubKey, .unfrozen, (92 : ZMod p)⟩

theorem bobs60_alice : (match ReceiverMemo.fromRo 0 bobs60 [] with
    | .ok c => isOk (ReceiverMemo.decrypt c alice bobs60.commitment [])
    | .error _ => true) = false := by decide +kernel
theorem chgA_nullifiers :
    (([(feeRec, (0 : U64)), (chgA, 2)] : List (RecordOpening × U64)).map (ownNullifier alice)).Nodup := by decide +kernel

/-- what the first payment is -/
theorem firstPayment : ∃ note memos w', Payment alice walletA payRng [(bob.pubKey, 60)] 3 [(feeRec, 0)] chgA note memos ∧
    World 2 .debug alice (seen0 ++ [.told feeRec 0] ++ [(feeRec, 0)].map .spending ++ [.expecting chgA]) led0 w' ∧
    validateTxnsBatch 2 led0 [.transfer note] 5 = .ok () := by
  obtain ⟨w', note, memos, sig, h1, h1', -, h2⟩ := alicePays worldA
    (by simpa using coin_only (more := []) (by simp)) walletA_holds 60 (by decide)
  obtain ⟨coins, chg, pay, -, hw, -⟩ := C61_payment worldA h1
  have hc : coins = [(feeRec, 0)] := by
    have hall : ∀ x ∈ coins, x = (feeRec, 0) := fun x hx => (walletA_holds x).1 (pay.held x hx).1
    have := pay.once
    match coins, pay.some_coin with
    | [x], _ => rw [hall x List.mem_cons_self]
    | x :: y :: l, _ =>
      exfalso
      rw [hall x List.mem_cons_self, hall y (by simp), List.nodup_cons] at this
      exact this.1 List.mem_cons_self
  subst hc
  have hg : chg = chgA := by
    have hv := pay.value
    change 100 + 0 = 60 + 0 + chg.amount.val + 3 at hv
    have ha : chg.amount = 37 := Fin.ext (show chg.amount.val = 37 by omega)
    obtain ⟨c1, c2, c3, c4⟩ := pay.change
    obtain ⟨a, ad, pk, ff, bl⟩ := chg
    dsimp only at ha c1 c2 c3 c4
    subst ha c1 c2 c3 c4
    rfl
  subst hg
  exact ⟨note, memos, w', pay, hw, h2 5 (by decide)⟩

/-- After the block with the payment: Bob's wallet has 60 at position 3, and in Alice's wallet the coin has been replaced
by the change. -/
example : ∃ note memos s' wB wA, validateTxnsBatch 2 led0 [.transfer note] 5 = .ok () ∧
    World 2 .debug bob (seen0 ++ [.block [(.transfer note, memos)] (47 : ZMod p) bob.pubKey 5]) s' wB ∧
    World 2 .debug alice (seen0 ++ [.told feeRec 0] ++ [(feeRec, 0)].map .spending ++
      .expecting chgA :: [.block [(.transfer note, memos)] (47 : ZMod p) bob.pubKey 5]) s' wA ∧
    (∃ ro, ro.amount = 60 ∧ ro.asset_def = AssetDefinition.native ∧
      (wB.Holds (ro, 3) ∨ ownNullifier bob (ro, 3) ∈ s'.nullifiers)) ∧
    ¬ wA.Holds (feeRec, 0) ∧ ∃ uid, wA.Holds (chgA, uid) ∨ ownNullifier alice (chgA, uid) ∈ s'.nullifiers := by
  obtain ⟨note, memos, w', pay, hw, valid⟩ := firstPayment
  obtain ⟨s', hs'⟩ := two_out pay.lengths.1
  have lens : ∀ t ∈ [(TransactionNote.transfer note, memos)], t.1.outputCommitments.length = t.2.length + 1 := by
    intro t ht
    obtain rfl := List.mem_singleton.1 ht
    show note.output_commitments.length = memos.length + 1
    rw [pay.lengths.1, pay.lengths.2]
  obtain ⟨wB, -, -, hB⟩ := C59_scans (uid := 2) (start_world bob) (txns := [(.transfer note, memos)]) (time := 5) valid hs'
    rfl lens
  obtain ⟨wA, -, -, hA⟩ := C59_scans (uid := 2) hw (txns := [(.transfer note, memos)]) (time := 5) valid hs' rfl lens
  have hA : World 2 .debug alice (seen0 ++ [.told feeRec 0] ++ [(feeRec, 0)].map .spending ++
      .expecting chgA :: [.block [(.transfer note, memos)] (47 : ZMod p) bob.pubKey 5]) s' wA := by
    simpa only [List.append_assoc, List.cons_append, List.nil_append] using hA
  have hat : ∀ {t : TransactionNote} {m : List Toy.E.AeadCt} {pos : ℕ},
      At (seen0 ++ [.told feeRec 0] ++ [(feeRec, 0)].map .spending ++
        .expecting chgA :: [.block [(.transfer note, memos)] (47 : ZMod p) bob.pubKey 5]) t m pos →
      t = .transfer note ∧ m = memos ∧ pos = 2 := by
    intro t m pos a
    have e : seen0 ++ [.told feeRec 0] ++ [(feeRec, 0)].map .spending ++
        .expecting chgA :: [.block [(.transfer note, memos)] (47 : ZMod p) bob.pubKey 5] =
        (seen0 ++ [.told feeRec 0] ++ [(feeRec, 0)].map .spending ++ [.expecting chgA]) ++
          [.block [(.transfer note, memos)] (47 : ZMod p) bob.pubKey 5] := by simp
    rw [e] at a
    rcases a.cases with a | ⟨txns, blind, who, time, n, h1, h2, rfl⟩
    · exfalso
      obtain ⟨before, txns, blind, who, time, after, -, -, h1, -⟩ := a
      have : Seen.block txns blind who time ∈
        seen0 ++ [.told feeRec 0] ++ [(feeRec, 0)].map .spending ++ [.expecting chgA] := by rw [h1]; simp
      simp [seen0] at this
    · cases h1
      rcases h2.cases with ⟨h3, h4⟩ | ⟨m, -, h3⟩
      · cases h3
        exact ⟨rfl, rfl, by rw [h4]; rfl⟩
      · exact (nomatch h3.mem)
  have expects : ∀ {c : RecordOpening}, .expecting c ∈ seen0 ++ [.told feeRec 0] ++ [(feeRec, 0)].map .spending ++
      .expecting chgA :: [.block [(.transfer note, memos)] (47 : ZMod p) bob.pubKey 5] → c = chgA := by
    intro c hc
    rcases List.mem_append.1 hc with hc | hc
    · simp [seen0] at hc
    · rcases List.mem_cons.1 hc with hc | hc
      · cases hc
        rfl
      · simp at hc
  have hr : ∀ x, Received alice (seen0 ++ [.told feeRec 0] ++ [(feeRec, 0)].map .spending ++
      .expecting chgA :: [.block [(.transfer note, memos)] (47 : ZMod p) bob.pubKey 5]) x →
      x ∈ [(feeRec, (0 : U64)), (chgA, 2)] := by
    intro x hx
    cases hx with
    | told mem =>
      simp only [seen0, List.cons_append, List.nil_append, List.mem_cons, List.not_mem_nil, or_false, reduceCtorEq, false_or,
        Seen.told.injEq, List.map_cons, List.map_nil] at mem
      rw [mem.1, mem.2]
      exact List.mem_cons_self
    | memo a o m op p =>
      rename_i t ms pos j rc c ro uid
      obtain ⟨e1, e2, -⟩ := hat a
      rw [e1] at o
      rw [e2] at m
      have hj : j = 0 := by
        have := (List.getElem?_eq_some_iff.1 m).1
        rw [pay.lengths.2] at this
        simp only [List.length_cons, List.length_nil] at this
        omega
      subst hj
      obtain ⟨g1, c', g2, g3⟩ := pay.rest 0 bobs60 ⟨_, rfl, by decide +kernel⟩
      rw [g2] at m
      cases m
      have g1' : (TransactionNote.transfer note).outputCommitments[0 + 1]? = some bobs60.commitment := g1
      rw [g1'] at o
      rw [← Option.some.inj o] at op
      have := bobs60_alice
      rw [show ReceiverMemo.fromRo 0 bobs60 [] = _ from g3] at this
      dsimp only at this
      rw [op] at this
      cases this
    | change wt a o p =>
      rename_i t ms pos chg uid
      obtain ⟨-, -, e3⟩ := hat a
      rw [e3] at p
      rw [expects wt, show uid = 2 from Fin.ext p]
      simp
  have apart : Apart alice (seen0 ++ [.told feeRec 0] ++ [(feeRec, 0)].map .spending ++
      .expecting chgA :: [.block [(.transfer note, memos)] (47 : ZMod p) bob.pubKey 5]) := by
    refine ⟨fun x y hx hy hn => List.inj_on_of_nodup_map chgA_nullifiers (hr x hx) (hr y hy) hn, fun x hx t m pos a hp => ?_⟩
    exfalso
    have h1 := hr x hx
    have : x.2.val ≤ 2 := by
      simp only [List.mem_cons, List.not_mem_nil, or_false] at h1
      rcases h1 with rfl | rfl <;> decide
    obtain ⟨rfl, -, rfl⟩ := hat a
    have hl : (TransactionNote.transfer note).outputCommitments.length = 2 := pay.lengths.1
    omega
  obtain ⟨g1, g2⟩ := C61_settles pay hA apart
    (fun c hc _ => expects hc)
    (List.mem_singleton.2 rfl) (List.mem_singleton.2 rfl)
  refine ⟨note, memos, s', wB, wA, valid, hB, hA, ?_, g1 _ (List.mem_singleton.2 rfl), g2⟩
  obtain ⟨ro, uid, q1, q2, -, q4, q5⟩ := C61_arrives pay hB (pos := 2) (j := 0) (amount := 60)
    ⟨seen0, [(.transfer note, memos)], _, _, _, [], [], [], rfl, rfl, rfl⟩ rfl
  obtain rfl : uid = 3 := Fin.ext q4
  exact ⟨ro, q1, q2, q5⟩

end Cap.Examples
