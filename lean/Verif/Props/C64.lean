/-
C64: what a freezer freezes is accepted and taken from its owner, and what it releases comes back.

status: partial
note: C64_did says what a request does (for every reachable wallet), C64_accepted_partial that it succeeds and is accepted; C64_taken, C64_settled, C64_released give the effects on owners. Partial because acceptance needs every listed record to be live on the ledger (C64_spent_false: one spent record is enough to refuse the request, and the freezer never drops it), fresh dummy keys and nullifiers, and no earlier request in flight (C64_twice_false).
-/
import Verif.Lemmas.Freezer
import Verif.Props.C54

namespace Cap

open Spec

variable [E : CapEnv] [S : CapExt] {d : Fin 256} {b : Build} {k : UserKeyPair} {h : List Seen} {s : LedgerState}
  {f f' f'' : Freezer} {rng rng' : FreezerRand} {flag : FreezeFlag} {user : Pt} {fee fee' : Amount}
  {note note' : FreezeNote} {memos memos' : List E.AeadCt} {sig sig' : E.Sig} {records : List (RecordOpening × U64)}
  {x : RecordOpening × U64}

/-! ### What a note consists of -/

omit S in
theorem allInputs_nullifiers : (f.allInputs d.val s rng flag records).map freezerNullifierOf =
    dummyNull (dummyFirst rng flag) :: (records.map f.nullifier ++ [dummyNull (dummyLast rng flag)]) := by
  unfold Freezer.allInputs
  rw [List.map_cons, List.map_append, List.map_map]
  rfl

omit S in
theorem allInputs_outputs : freezeGetOutputRos rng.note.blinds (f.allInputs d.val s rng flag records) =
    (dummiesAfter rng flag records.length).1 ::
      (records.mapIdx (flipped rng) ++ [(dummiesAfter rng flag records.length).2]) := by
  unfold freezeGetOutputRos Freezer.allInputs
  rw [List.mapIdx_cons, List.mapIdx_append, List.mapIdx_cons, List.mapIdx_nil, List.length_map]
  congr 1
  congr 1
  · apply List.ext_getElem?
    intro j
    simp only [List.getElem?_mapIdx, List.getElem?_map, Option.map_map]
    rfl
  · simp only [Nat.zero_add]
    rfl

omit S in
theorem flipped_not_dummy (real : x.1.asset_def ≠ AssetDefinition.dummy) (j : ℕ) : (flipped rng j x).isDummy = false := by
  rw [← Bool.not_eq_true, RecordOpening.isDummy_iff]
  exact real

omit S in
theorem dummiesAfter_dummy (n : ℕ) : (dummiesAfter rng flag n).1.isDummy = true ∧ (dummiesAfter rng flag n).2.isDummy = true := by
  rw [RecordOpening.isDummy_iff, RecordOpening.isDummy_iff]
  exact ⟨rfl, rfl⟩

theorem Freezer.Doing.froze {c : RecordOpening × U64} {info : TxnFeeInfo} {chg : RecordOpening} {pk : FreezeProvingKey}
    {vk : FreezeVerifyingKey} {sk : Fr} {outs : List RecordOpening} {pending : List (F × Pending)}
    (world : World d b k h s f.wallet)
    (sp : f.Doing d s rng flag user fee f' note memos sig records c info chg pk vk sk outs pending) :
    Froze k f rng flag records fee c chg note memos := by
  obtain ⟨c1, c2, c3, c4, c5, c6, c7, c8⟩ := C23_change _ _ _ _ _ sp.fee_ok
  have fg := FreezeNote.generate_ok.1 sp.gen
  obtain ⟨shelf, hs1, hs2, -⟩ := Wallet.findRecordForFee_ok sp.fee_find
  have hf : f.wallet.Holds c := (((shelf_holds world nativeCode hs1).2 c).1 hs2).1
  have hnat : c.1.asset_def = AssetDefinition.native := by
    have := fg.checks.fee_ok.fee_native
    rwa [c7] at this
  have hchg : chg.pub_key = k.pubKey := by
    rw [c2]
    exact (C59_sound world c hf).2.1
  have hfee : note.aux_info.fee = info.fee_amount := congrArg FreezePublicInput.fee fg.pub
  have hmem := Wallet.payMemos_ok sp.memos_ok
  have houts : outs = _ := fg.outs_eq.trans allInputs_outputs
  refine ⟨⟨hf, hnat⟩, c1.symm, by rw [hfee, c8], ⟨c3, hchg, c4, c5⟩, ?_, ?_, ?_, ?_⟩
  · refine (congrArg FreezePublicInput.input_nullifiers fg.pub).trans ?_
    unfold freezePubOf
    dsimp only
    rw [c7, show (fun i : FreezeNoteInput => freezeNullifier i.keypair i.ro i.acc) = freezerNullifierOf from rfl,
      allInputs_nullifiers]
    congr 1
    unfold ownNullifier
    rw [hnat, ← (worldOk world).key]
    rfl
  · refine (congrArg FreezePublicInput.output_commitments fg.pub).trans ?_
    unfold freezePubOf
    dsimp only
    rw [c6, allInputs_outputs]
    rfl
  · rw [hmem.1, houts]
    simp
  · intro j x hx
    have hj : j < records.length := (List.getElem?_eq_some_iff.1 hx).1
    have := hmem.2 (j + 1) (flipped rng j x) (by
      rw [houts, List.getElem?_cons_succ, List.getElem?_append_left (by simpa using hj), List.getElem?_mapIdx, hx]
      rfl)
    rwa [Nat.zero_add] at this

theorem Freezer.Doing.pendings {c : RecordOpening × U64} {info : TxnFeeInfo} {chg : RecordOpening} {pk : FreezeProvingKey}
    {vk : FreezeVerifyingKey} {sk : Fr} {outs : List RecordOpening} {pending : List (F × Pending)}
    (sp : f.Doing d s rng flag user fee f' note memos sig records c info chg pk vk sk outs pending)
    (real : ∀ x ∈ records, x.1.asset_def ≠ AssetDefinition.dummy) (nodup : (records.map f.nullifier).Nodup) :
    (∀ n, n ∉ records.map f.nullifier → mapGet n (f'.waiting flag) = mapGet n (f.waiting flag)) ∧
      ∀ (j : ℕ) x, records[j]? = some x →
        mapGet (f.nullifier x) (f'.waiting flag) = some ⟨x.1.pub_key.address, x, flipped rng j x⟩ := by
  have fg := FreezeNote.generate_ok.1 sp.gen
  have houts : outs = _ := fg.outs_eq.trans allInputs_outputs
  have hp := sp.marks
  rw [houts, Freezer.markPending.eq_def] at hp
  dsimp only at hp
  rw [if_pos (dummiesAfter_dummy _).1] at hp
  obtain ⟨p, h1, h2, h3⟩ := Freezer.markPending_spec (f := f) (ds := [(dummiesAfter rng flag records.length).2])
    (by intro o ho; rw [List.mem_singleton.1 ho]; exact (dummiesAfter_dummy _).2)
    (news := records.mapIdx (flipped rng)) (old := records) (f.waiting flag) (by simp)
    (by
      intro o ho
      obtain ⟨j, hj, rfl⟩ := List.mem_mapIdx.1 ho
      exact flipped_not_dummy (real _ (List.getElem_mem _)) _)
  rw [h1] at hp
  cases hp
  have hw : f'.waiting flag = pending := by
    rw [sp.freezer]
    cases flag <;> rfl
  rw [hw]
  refine ⟨h2, fun j x hx => h3 nodup j x _ hx ?_⟩
  rw [List.getElem?_mapIdx, hx, Option.map_some]

/-- **What freezing and releasing do.**  Whatever `freeze_user` or `unfreeze_user` returns pays exactly the fee, from a held
native record, and replaces every record on the user's list by the same record in the other state; the memos are signed, and
the freezer waits for the note and goes on. -/
theorem C64_did (world : World d b k h s f.wallet)
    (ok : f.freezeUser d s rng flag user fee = .ok (f', note, memos, sig)) :
    ∃ records coin chg, mapGet user (f.shelf flag) = some records ∧ Froze k f rng flag records fee coin chg note memos ∧
      TransactionNote.verifyReceiverMemosSignature (.freeze note) memos sig = .ok () ∧
      World d b k (h ++ [.spending coin, .expecting chg]) s f'.wallet ∧
      (f'.keypair = f.keypair ∧ f'.viewer = f.viewer ∧ f'.users = f.users ∧ ∀ fl, f'.shelf fl = f.shelf fl) ∧
      ((∀ x ∈ records, x.1.asset_def ≠ AssetDefinition.dummy) → ∀ (j : ℕ) x, records[j]? = some x →
        mapGet (f.nullifier x) (f'.waiting flag) = some ⟨x.1.pub_key.address, x, flipped rng j x⟩) := by
  obtain ⟨records, c, info, chg, pk, vk, sk, outs, pending, sp⟩ := Freezer.freezeUser_ok.1 ok
  have fr := sp.froze world
  obtain ⟨c1, c2, c3, c4, c5, c6, c7, c8⟩ := C23_change _ _ _ _ _ sp.fee_ok
  have fg := FreezeNote.generate_ok.1 sp.gen
  have hne : memos ≠ [] := by
    intro e
    have := fr.memos.1
    rw [e] at this
    cases this
  have hnull : f.wallet.keypair.nullify 0 c.2 c.1.commitment = f.wallet.nullify c := by
    unfold Wallet.nullify
    rw [fr.held.2]
    rfl
  refine ⟨records, c, chg, sp.known, fr, ?_, ?_, ?_, fun real => ?_⟩
  · obtain ⟨sig', q1, q2⟩ := C36_sign_verify sk (.freeze note) memos
      (by show note.aux_info.txn_memo_ver_key = _; rw [fg.ver_key, fg.sign_key]) hne
    rw [sp.sig_ok] at q1
    cases q1
    exact q2
  · have h1 := World.expecting (world.spending fr.held.1) fr.change.2.1 c4
    rw [List.append_assoc] at h1
    have : f'.wallet = { (f.wallet.markUnconfirmedSpent (f.wallet.nullify c) c.1 c.2) with
        changes := setInsert chg f.wallet.changes } := by
      rw [sp.freezer, hnull]
      cases flag <;> rfl
    rw [this]
    exact h1
  · rw [sp.freezer]
    cases flag <;> exact ⟨rfl, rfl, rfl, fun fl => by cases fl <;> rfl⟩
  · refine (sp.pendings real ?_).2
    have := checkDistinct_ok.1 fg.distinct
    rw [fr.nullifiers] at this
    exact (List.nodup_append.1 (List.nodup_cons.1 (List.nodup_cons.1 this).2).2).1

/-! ### Notes are accepted -/

omit S in
theorem live_input (holder : Holder f) (room : s.leaves.length ≤ 3 ^ d.val) (live : Live f s flag x) :
    FreezableBy d.val (treeRoot d.val s.leaves) (f.inputFor d.val s x) := by
  refine .real ?_ ?_ (treePath_length _ _ _) rfl (treePath_root room live.leaf)
  · show x.1.asset_def.policy.freezer_pk ≠ 0
    rw [live.asset, holder.policy]
    exact holder.set
  · show x.1.asset_def.policy.freezer_pk = _
    rw [live.asset, holder.policy]
    exact holder.pair

/-- **Freezing requests are accepted.**  A freezer that holds the key of its asset, with records on the user's list that are
on the ledger, in the right state and unspent, and with a native record that can pay the fee, gets a note that the validator
accepts at any time, with signed memos. -/
theorem C64_accepted_partial (complete : SnarkComplete) (batch : SnarkBatch) (world : World d b k h s f.wallet)
    (apart : Apart k h) (holder : Holder f) (known : mapGet user (f.shelf flag) = some records)
    (live : ∀ x ∈ records, Live f s flag x) (rng : FreezerRand)
    (genuine : ∀ x, f.wallet.Holds x → x.1.asset_def.code = nativeCode → x.1.asset_def = AssetDefinition.native)
    (fee_coin : ∃ x, f.wallet.Holds x ∧ x.1.asset_def.code = nativeCode ∧ fee ≤ x.1.amount)
    (owners : (dummyFirst rng flag).pub_key.address ≠ 0 ∧ (dummyLast rng flag).pub_key.address ≠ 0)
    (once : ∀ coin, f.wallet.Holds coin → coin.1.asset_def.code = nativeCode →
      (ownNullifier k coin :: dummyNull (dummyFirst rng flag) :: (records.map f.nullifier ++ [dummyNull (dummyLast rng flag)])).Nodup)
    (unused : dummyNull (dummyFirst rng flag) ∉ s.nullifiers ∧ dummyNull (dummyLast rng flag) ∉ s.nullifiers)
    (keys : ∃ keys, freezePreprocess (records.length + 3) d = .ok keys)
    (encrypts : ∀ i, ∀ o ∈ (dummiesAfter rng flag records.length).1 ::
      (records.mapIdx (flipped rng) ++ [(dummiesAfter rng flag records.length).2]),
      ∃ c, ReceiverMemo.fromRo (rng.memos i) o [] = .ok c) :
    ∃ f' note memos sig, f.freezeUser d s rng flag user fee = .ok (f', note, memos, sig) ∧ note.aux_info.fee = fee ∧
      TransactionNote.verifyReceiverMemosSignature (.freeze note) memos sig = .ok () ∧
      ∀ time : U64, validateTxnsBatch d s [.freeze note] time = .ok () := by
  obtain ⟨c, hfr, hfh, hfn, hff, hflook⟩ := fee_found world fee_coin
  obtain ⟨-, hfk, hfu, hfl⟩ := C59_sound world c hfh
  obtain ⟨⟨pk, vk⟩, keys⟩ := keys
  have hroom := (worldOk world).room
  set fi : FeeInput := ⟨c.1, lookup d.val s c.2, f.wallet.keypair⟩ with hfi
  have hown : nullifierOf fi.toTransferInput = ownNullifier k c := by rw [← (worldOk world).key]; rfl
  have pays : PaysFee d.val (treeRoot d.val s.leaves) fi fee :=
    ⟨treePath_length _ _ _, genuine c hfh hfn, hfu, by rw [hfi, (worldOk world).key]; exact hfk,
      ⟨rfl, treePath_root hroom hfl⟩, hff⟩
  have hlen : (f.allInputs d.val s rng flag records).length + 1 = records.length + 3 := by
    unfold Freezer.allInputs
    simp
  have hmem : ∀ i ∈ f.allInputs d.val s rng flag records, i = Freezer.dummyInput d.val (dummyFirst rng flag) ∨
      (∃ x ∈ records, i = f.inputFor d.val s x) ∨ i = Freezer.dummyInput d.val (dummyLast rng flag) := by
    intro i hi
    unfold Freezer.allInputs at hi
    rw [List.mem_cons, List.mem_append, List.mem_singleton, List.mem_map] at hi
    rcases hi with h1 | ⟨x, h1, h2⟩ | h1
    · exact .inl h1
    · exact .inr (.inl ⟨x, h1, h2.symm⟩)
    · exact .inr (.inr h1)
  have hdummy : ∀ ro : RecordOpening, ro.asset_def = AssetDefinition.dummy →
      FreezableBy d.val (treeRoot d.val s.leaves) (Freezer.dummyInput d.val ro) :=
    fun ro h => .dummy h rfl (by simp [Freezer.dummyInput, Wallet.dummyWitness])
  have wf : WellFormedFreeze (records.length + 3) d.val (treeRoot d.val s.leaves) (f.allInputs d.val s rng flag records)
      fi fee := by
    refine ⟨by simp [Freezer.allInputs], hlen, pays, fun i hi => ?_, ?_⟩
    · rcases hmem i hi with rfl | ⟨x, hx, rfl⟩ | rfl
      · exact hdummy _ rfl
      · exact live_input holder hroom (live x hx)
      · exact hdummy _ rfl
    · rw [hown, allInputs_nullifiers]
      exact once c hfh hfn
  obtain ⟨info, chg, n, sk, outs, new, gen, hver, p1, p2, p3, p4, p5⟩ := C54_partial complete keys wf
    (by
      intro i hi
      rcases hmem i hi with rfl | ⟨x, hx, rfl⟩ | rfl
      · exact owners.1
      · exact (live x hx).owner
      · exact owners.2) rng.chg_blind rng.note
  have fg := FreezeNote.generate_ok.1 gen
  have houts : outs = _ := fg.outs_eq.trans allInputs_outputs
  obtain ⟨ms, hms⟩ := Wallet.payMemos_intro (memos := rng.memos) (l := outs) (i := 0) (fun j ro hj => by
    rw [Nat.zero_add]
    exact encrypts j ro (by rw [← houts]; exact List.mem_of_getElem? hj))
  have hne : ms ≠ [] := by
    intro e
    have := (Wallet.payMemos_ok hms).1
    rw [e, houts] at this
    cases this
  obtain ⟨sig, q1, q2⟩ := C36_sign_verify sk (.freeze n) ms
    (by show n.aux_info.txn_memo_ver_key = _; rw [fg.ver_key, fg.sign_key]) hne
  have hreal : ∀ x ∈ records, x.1.asset_def ≠ AssetDefinition.dummy := by
    intro x hx e
    have := holder.policy
    rw [← (live x hx).asset, e] at this
    exact holder.set this.symm
  obtain ⟨p, hp, -, -⟩ := Freezer.markPending_spec (f := f) (ds := [(dummiesAfter rng flag records.length).2])
    (by intro o ho; rw [List.mem_singleton.1 ho]; exact (dummiesAfter_dummy _).2)
    (news := records.mapIdx (flipped rng)) (old := records) (f.waiting flag) (by simp)
    (by
      intro o ho
      obtain ⟨j, hj, rfl⟩ := List.mem_mapIdx.1 ho
      exact flipped_not_dummy (hreal _ (List.getElem_mem _)) _)
  have hmark : f.markPending outs records (f.waiting flag) = .ok p := by
    rw [houts, Freezer.markPending.eq_def]
    dsimp only
    rw [if_pos (dummiesAfter_dummy _).1]
    exact hp
  refine ⟨_, n, ms, sig, Freezer.freezeUser_ok.2 ⟨records, c, info, chg, pk, vk, sk, outs, p, known, hfr, hflook, new,
    Freezer.freezeInputs_intro (fun x hx => (List.getElem?_eq_some_iff.1 (live x hx).leaf).1), by rw [hlen]; exact keys, gen,
    hms, q1, hmark, rfl⟩, p4, q2, fun time => ?_⟩
  have hv := FreezeNote.verify_ok.1 hver
  exact validate_made complete batch (d := d) (s := s) (ts := [⟨.freeze n, _, _⟩]) (time := time) (by simp)
    (by
      intro t ht
      rw [List.mem_singleton] at ht
      rw [ht]
      refine Made.freeze keys gen ?_ (fun i hi => ?_)
      · obtain ⟨-, -, -, -, -, -, c7, -⟩ := C23_change _ _ _ _ _ new
        rw [c7]
        exact treePath_length _ _ _
      · rcases wf.inputs_ok i hi with ⟨_, _, a3, _, _⟩ | ⟨_, _, a3⟩ <;> exact a3)
    (by
      intro t ht'
      rw [List.mem_singleton] at ht'
      rw [ht']
      trivial)
    (by
      intro t ht
      rw [List.mem_singleton] at ht
      rw [ht]
      show n.aux_info.merkle_root ∈ _
      rw [← hv.1]
      exact (worldOk world).root)
    (by
      rw [List.flatMap_cons, List.flatMap_nil, List.append_nil]
      show n.input_nullifiers.Nodup
      rw [p1, hown, allInputs_nullifiers]
      exact once c hfh hfn)
    (by
      intro t ht
      rw [List.mem_singleton] at ht
      rw [ht]
      intro y hy
      have hy : y ∈ n.input_nullifiers := hy
      rw [p1, hown, allInputs_nullifiers, List.mem_cons, List.mem_cons, List.mem_append, List.mem_singleton] at hy
      rcases hy with rfl | rfl | hy | rfl
      · exact C59_fresh world apart c hfh
      · exact unused.1
      · obtain ⟨x, hx, rfl⟩ := List.mem_map.1 hy
        exact (live x hx).unspent
      · exact unused.2)

/-! ### They take effect -/

variable {coin : RecordOpening × U64} {chg : RecordOpening} {k' : UserKeyPair} {d' : Fin 256} {b' : Build} {h' : List Seen}
  {s' : LedgerState} {w' : Wallet}

theorem Spec.Froze.spends (fr : Froze k f rng flag records fee coin chg note memos) (mem : x ∈ records) :
    f.nullifier x ∈ note.input_nullifiers := by
  rw [fr.nullifiers]
  exact List.mem_cons_of_mem _ (List.mem_cons_of_mem _ (List.mem_append_left _ (List.mem_map_of_mem mem)))

omit S in
theorem owner_nullifier (holder : Holder f) (asset : x.1.asset_def = f.viewer.asset_def)
    (owner : x.1.pub_key.address = k'.address) : ownNullifier k' x = f.nullifier x := by
  unfold ownNullifier Freezer.nullifier
  rw [asset, holder.policy, owner]
  exact C09_library _ _ holder.pair holder.set _ _

/-- **Frozen records are taken from their owner**: once a block with the note is in, the owner's wallet does not hold them.
(The same goes for the frozen records when they are released.) -/
theorem C64_taken (holder : Holder f) (fr : Froze k f rng flag records fee coin chg note memos) (mem : x ∈ records)
    (asset : x.1.asset_def = f.viewer.asset_def) (owner : x.1.pub_key.address = k'.address)
    {txns : List (TransactionNote × List E.AeadCt)} {blind : F} {who : UserPubKey} {time : U64} {more : List Seen}
    (world : World d' b' k' (h' ++ .block txns blind who time :: more) s' w')
    (apart : Apart k' (h' ++ .block txns blind who time :: more)) {ms : List E.AeadCt}
    (there : (.freeze note, ms) ∈ txns) : ¬ w'.Holds x := by
  refine C59_gone world apart x there ?_
  rw [owner_nullifier holder asset owner]
  exact fr.spends mem

/-- **Nobody can spend them**: from then on the validator refuses every block with a note that has the nullifier of such a
record, be it the owner's or the freezer's. -/
theorem C64_settled (fr : Froze k f rng flag records fee coin chg note memos) (mem : x ∈ records)
    {s1 s2 : LedgerState} {block : MockBlock} (there : .freeze note ∈ block.txns)
    (inserted : s1.insertBlock d'.val block = .ok s2) {t : TransactionNote} {txns : List TransactionNote} {time : U64}
    (ht : t ∈ txns) (uses : f.nullifier x ∈ t.nullifiers) : validateTxnsBatch d' s2 txns time ≠ .ok () := by
  intro hv
  obtain ⟨-, -, hf, -⟩ := validateTxnsBatch_ok hv
  obtain ⟨_, -, -, -, hn, -⟩ := LedgerState.insertBlock_ok inserted
  exact hf _ (List.mem_flatMap.2 ⟨t, ht, uses⟩) ((hn _).2 (.inl (List.mem_flatMap.2 ⟨_, there, fr.spends mem⟩)))

/-- **Released records come back**: the owner's wallet has the record number `j` again, at its new position. -/
theorem C64_released (fr : Froze k f rng .frozen records fee coin chg note memos) {j : ℕ} (mem : records[j]? = some x)
    (frozen : x.1.freeze_flag = .frozen) (owner : x.1.pub_key = k'.pubKey) (world : World d' b' k' h' s' w') {pos : ℕ}
    (there : At h' (.freeze note) memos pos) :
    ∃ uid : U64, uid.val = pos + 1 + (j + 1) ∧ (flipped rng j x).amount = x.1.amount ∧
      (flipped rng j x).asset_def = x.1.asset_def ∧ (flipped rng j x).freeze_flag = .unfrozen ∧
      (w'.Holds (flipped rng j x, uid) ∨ ownNullifier k' (flipped rng j x, uid) ∈ s'.nullifiers) := by
  have hin := there.inside
  have hsz := (worldOk world).size
  have hsm := (worldOk world).small
  have hj : j < records.length := (List.getElem?_eq_some_iff.1 mem).1
  have hlen : (TransactionNote.freeze note).outputCommitments.length = records.length + 3 := by
    show note.output_commitments.length = _
    rw [fr.outputs]
    simp
  have hflag : (flipped rng j x).freeze_flag = .unfrozen := by
    show x.1.freeze_flag.flip = _
    rw [frozen]
    rfl
  obtain ⟨c, hc1, hc2⟩ := fr.memos.2 j x mem
  refine ⟨⟨pos + 1 + (j + 1), by omega⟩, rfl, rfl, rfl, hflag,
    C59_memo world there (j := j + 1) (rc := (flipped rng j x).commitment) ?_ hc1
      (C35_round_trip _ _ _ _ _ owner hc2) hflag rfl⟩
  show note.output_commitments[j + 1 + 1]? = _
  rw [fr.outputs, List.getElem?_map, List.getElem?_cons_succ, List.getElem?_cons_succ,
    List.getElem?_append_left (by simpa using hj), List.getElem?_mapIdx, mem]
  rfl

/-! ### What can go wrong -/

theorem Freezer.Doing.nullifiers {c : RecordOpening × U64} {info : TxnFeeInfo} {pk : FreezeProvingKey}
    {vk : FreezeVerifyingKey} {sk : Fr} {outs : List RecordOpening} {pending : List (F × Pending)}
    (sp : f.Doing d s rng flag user fee f' note memos sig records c info chg pk vk sk outs pending) (mem : x ∈ records) :
    f.nullifier x ∈ note.input_nullifiers := by
  have := congrArg FreezePublicInput.input_nullifiers (FreezeNote.generate_ok.1 sp.gen).pub
  rw [show note.input_nullifiers = _ from this]
  unfold freezePubOf
  refine List.mem_cons_of_mem _ ?_
  rw [show (fun i : FreezeNoteInput => freezeNullifier i.keypair i.ro i.acc) = freezerNullifierOf from rfl,
    allInputs_nullifiers]
  exact List.mem_cons_of_mem _ (List.mem_append_left _ (List.mem_map_of_mem mem))

/-- **A record that was spent spoils everything.**  If one of the records on the user's list has been spent on the ledger
`s'`, then whatever `freeze_user` returns for this user is refused there. -/
theorem C64_spent_false (listed : f.Lists flag user x) (spent : f.nullifier x ∈ s'.nullifiers)
    (ok : f.freezeUser d s rng flag user fee = .ok (f', note, memos, sig)) (d' : Fin 256) {txns : List TransactionNote}
    (time : U64) (mem : .freeze note ∈ txns) : validateTxnsBatch d' s' txns time ≠ .ok () := by
  obtain ⟨records, c, info, chg, pk, vk, sk, outs, pending, sp⟩ := Freezer.freezeUser_ok.1 ok
  intro hv
  obtain ⟨l, hl, hx⟩ := listed
  rw [sp.known] at hl
  cases hl
  obtain ⟨-, -, hf, -⟩ := validateTxnsBatch_ok hv
  exact hf _ (List.mem_flatMap.2 ⟨_, mem, sp.nullifiers hx⟩) spent

/-- **Two requests in a row exclude each other**, if there is a record to freeze: both notes are made from the same list. -/
theorem C64_twice_false (listed : f.Lists flag user x)
    (first : f.freezeUser d s rng flag user fee = .ok (f', note, memos, sig)) {s2 : LedgerState}
    (second : f'.freezeUser d s2 rng' flag user fee' = .ok (f'', note', memos', sig')) :
    f.nullifier x ∈ note.input_nullifiers ∧ f.nullifier x ∈ note'.input_nullifiers ∧
    (∀ (d' : Fin 256) (s' : LedgerState) (time : U64) (l1 l2 l3 : List TransactionNote),
      validateTxnsBatch d' s' (l1 ++ .freeze note :: l2 ++ .freeze note' :: l3) time ≠ .ok ()) ∧
    ∀ (d' : Fin 256) (s1 s1' : LedgerState) (block : MockBlock) (txns : List TransactionNote) (time : U64),
      .freeze note ∈ block.txns → s1.insertBlock d'.val block = .ok s1' → .freeze note' ∈ txns →
      validateTxnsBatch d' s1' txns time ≠ .ok () := by
  obtain ⟨records, c, info, chg, pk, vk, sk, outs, pending, sp⟩ := Freezer.freezeUser_ok.1 first
  obtain ⟨records', c', info', chg', pk', vk', sk', outs', pending', sp'⟩ := Freezer.freezeUser_ok.1 second
  obtain ⟨l, hl, hx⟩ := listed
  rw [sp.known] at hl
  cases hl
  have hsh : f'.shelf flag = f.shelf flag := by
    rw [sp.freezer]
    cases flag <;> rfl
  have hnul : f'.nullifier x = f.nullifier x := by
    rw [sp.freezer]
    cases flag <;> rfl
  have hx' : x ∈ records' := by
    have := sp'.known
    rw [hsh, sp.known] at this
    cases this
    exact hx
  have h1 := sp.nullifiers hx
  have h2 := sp'.nullifiers hx'
  rw [hnul] at h2
  refine ⟨h1, h2, fun d' s' time l1 l2 l3 hv => ?_, fun d' s1 s1' block txns time hm hi ht hv => ?_⟩
  · obtain ⟨-, hnd, -⟩ := validateTxnsBatch_ok hv
    rw [List.flatMap_append, List.flatMap_append, List.flatMap_cons, List.flatMap_cons] at hnd
    have := (List.nodup_append.1 hnd).2.2
    exact this _ (List.mem_append_right _ (List.mem_append_left _ h1)) _ (List.mem_append_left _ h2) rfl
  · obtain ⟨-, -, hf, -⟩ := validateTxnsBatch_ok hv
    obtain ⟨fee, -, -, -, hn, -⟩ := LedgerState.insertBlock_ok hi
    exact hf _ (List.mem_flatMap.2 ⟨_, ht, h2⟩) ((hn _).2 (.inl (List.mem_flatMap.2 ⟨_, hm, h1⟩)))

end Cap

namespace Cap.Examples

open Toy Spec

/-! A ledger with a native coin of Carol, 50 of the asset of Alice, and 40 of it of Bob, frozen.  The freezer of the asset
pays the fees from Carol's wallet; it freezes Alice's record and releases Bob's. -/

def carol : UserKeyPair := ⟨(12 : ZMod r), (11 : UInt8)⟩
def frzCoin : RecordOpening := ⟨100, AssetDefinition.native, carol.pubKey, .unfrozen, (35 : ZMod p)⟩
def seenF : List Seen := [.grant frzCoin, .grant assetRec, .grant frozenRec]
def treeF : List F := [frzCoin.commitment, assetRec.commitment, frozenRec.commitment]
def ledF : LedgerState := ⟨treeF, [], [treeRoot 2 treeF, treeRoot 2 [frzCoin.commitment, assetRec.commitment],
  treeRoot 2 [frzCoin.commitment], treeRoot 2 []]⟩

theorem worldF (k : UserKeyPair) : World 2 .debug k seenF ledF (Wallet.new k) :=
  .grant (h := [.grant frzCoin, .grant assetRec]) (s := ⟨[frzCoin.commitment, assetRec.commitment], [],
      [treeRoot 2 [frzCoin.commitment, assetRec.commitment], treeRoot 2 [frzCoin.commitment], treeRoot 2 []]⟩)
    (.grant (h := [.grant frzCoin]) (s := ⟨[frzCoin.commitment], [], [treeRoot 2 [frzCoin.commitment], treeRoot 2 []]⟩)
      (.grant .start (bind_ok_iff.2 ⟨_, room (by decide), rfl⟩)) (bind_ok_iff.2 ⟨_, room (by decide), rfl⟩))
    (bind_ok_iff.2 ⟨_, room (by decide), rfl⟩)

def walletF : Wallet := (Wallet.new carol).addRecordOpening frzCoin 0

theorem worldCarol : World 2 .debug carol (seenF ++ [.told frzCoin 0]) ledF walletF :=
  (worldF carol).told rfl rfl rfl (by simp [ledF])

theorem walletF_holds (x : RecordOpening × U64) : walletF.Holds x ↔ x = (frzCoin, 0) := by
  unfold walletF
  rw [Wallet.holds_add]
  refine ⟨fun h => h.elim id (fun ⟨_, h, _⟩ => nomatch h), .inl⟩

theorem carol_only {more : List Seen} (hm : ∀ e ∈ more, (∃ x, e = .spending x) ∨ ∃ c, e = .expecting c) :
    Apart carol (seenF ++ [.told frzCoin 0] ++ more) := by
  have hat : ∀ {t : TransactionNote} {memos : List Toy.E.AeadCt} {pos : ℕ},
      ¬ At (seenF ++ [.told frzCoin 0] ++ more) t memos pos := by
    rintro t memos pos ⟨before, txns, blind, who, time, after, -, -, h1, -⟩
    have : Seen.block txns blind who time ∈ seenF ++ [.told frzCoin 0] ++ more := by rw [h1]; simp
    rcases List.mem_append.1 this with h | h
    · simp [seenF] at h
    · rcases hm _ h with ⟨_, h⟩ | ⟨_, h⟩ <;> cases h
  have hr : ∀ x, Received carol (seenF ++ [.told frzCoin 0] ++ more) x → x = (frzCoin, 0) := by
    intro x hx
    cases hx with
    | told mem =>
      rcases List.mem_append.1 mem with h | h
      · simp only [seenF, List.cons_append, List.nil_append, List.mem_cons, List.not_mem_nil, or_false, reduceCtorEq,
          false_or, Seen.told.injEq] at h
        rw [h.1, h.2]
      · rcases hm _ h with ⟨_, h⟩ | ⟨_, h⟩ <;> cases h
    | memo a => exact absurd a hat
    | change _ a => exact absurd a hat
  refine ⟨fun x y hx hy _ => (hr x hx).trans (hr y hy).symm, fun x hx t m pos a => absurd a hat⟩

/-- the freezer of the asset -/
def freezer1 : Freezer :=
  ⟨⟨viewer, asset⟩, freezer, walletF, [(alice.address, [(assetRec, 1)])], [(bob.address, [(frozenRec, 2)])], [], [], []⟩

def frzRand : FreezerRand := ⟨(71 : ZMod p), ⟨(13 : ZMod r), (12 : UInt8)⟩, (72 : ZMod p), ⟨(14 : ZMod r), (13 : UInt8)⟩,
  (73 : ZMod p), ⟨fun i => (i : ZMod p) + 80, (54 : ZMod r), 0⟩, fun i => i + 3⟩

theorem holder1 : Holder freezer1 := ⟨rfl, by decide +kernel, rfl⟩

/-- the user concerned, and their records -/
def frzUser : FreezeFlag → Pt
  | .unfrozen => alice.address
  | .frozen => bob.address
def frzRecords : FreezeFlag → List (RecordOpening × U64)
  | .unfrozen => [(assetRec, 1)]
  | .frozen => [(frozenRec, 2)]

theorem frz_known (flag : FreezeFlag) : mapGet (frzUser flag) (freezer1.shelf flag) = some (frzRecords flag) := by
  cases flag <;> rfl

theorem frz_once (flag : FreezeFlag) : (ownNullifier carol (frzCoin, 0) :: dummyNull (dummyFirst frzRand flag) ::
    ((frzRecords flag).map freezer1.nullifier ++ [dummyNull (dummyLast frzRand flag)])).Nodup := by
  cases flag <;> decide +kernel

theorem frz_owners : (alice.address ≠ 0 ∧ bob.address ≠ 0) ∧ (dummyFirst frzRand .unfrozen).pub_key.address ≠ 0 ∧
    (dummyLast frzRand .unfrozen).pub_key.address ≠ 0 := by decide +kernel

/-- the freezer freezes Alice's record and releases Bob's, from any wallet with this coin -/
theorem freezes (flag : FreezeFlag) {h : List Seen} {f : Freezer} (world : World 2 .debug carol h ledF f.wallet)
    (apart : Apart carol h) (hold : ∀ x, f.wallet.Holds x ↔ x = (frzCoin, 0))
    (same : f.keypair = freezer1.keypair ∧ f.viewer = freezer1.viewer ∧ ∀ fl, f.shelf fl = freezer1.shelf fl) :
    ∃ f' note memos sig, f.freezeUser 2 ledF frzRand flag (frzUser flag) 7 = .ok (f', note, memos, sig) ∧
      note.aux_info.fee = 7 ∧ TransactionNote.verifyReceiverMemosSignature (.freeze note) memos sig = .ok () ∧
      ∀ time : U64, validateTxnsBatch 2 ledF [.freeze note] time = .ok () := by
  have hnul : f.nullifier = freezer1.nullifier := by
    unfold Freezer.nullifier
    rw [same.1]
  refine C64_accepted_partial Toy.complete Toy.batch world apart ?_ (records := frzRecords flag) ?_ ?_ frzRand ?_
    ⟨_, (hold _).2 rfl, rfl, by decide⟩ ?_ ?_ ⟨by simp [ledF], by simp [ledF]⟩ ⟨_, rfl⟩ (fun i o ho => ?_)
  · have := holder1
    exact ⟨by rw [same.1]; exact this.pair, by rw [same.1]; exact this.set, by rw [same.1, same.2.1]; exact this.policy⟩
  · rw [same.2.2]
    exact frz_known flag
  · intro x hx
    cases flag with
    | unfrozen =>
      obtain rfl := List.mem_singleton.1 hx
      exact ⟨by rw [same.2.1]; rfl, rfl, frz_owners.1.1, rfl, by simp [ledF]⟩
    | frozen =>
      obtain rfl := List.mem_singleton.1 hx
      exact ⟨by rw [same.2.1]; rfl, rfl, frz_owners.1.2, rfl, by simp [ledF]⟩
  · intro x hx _
    rw [(hold x).1 hx]
    rfl
  · cases flag <;> exact frz_owners.2
  · intro coin hc _
    rw [(hold coin).1 hc, hnul]
    exact frz_once flag
  · exact ⟨_, rfl⟩

theorem freezer1_frz (flag : FreezeFlag) :
    ∃ f' note memos sig, freezer1.freezeUser 2 ledF frzRand flag (frzUser flag) 7 = .ok (f', note, memos, sig) ∧
      note.aux_info.fee = 7 ∧ TransactionNote.verifyReceiverMemosSignature (.freeze note) memos sig = .ok () ∧
      ∀ time : U64, validateTxnsBatch 2 ledF [.freeze note] time = .ok () :=
  freezes flag worldCarol (by simpa using carol_only (more := []) (by simp)) walletF_holds ⟨rfl, rfl, fun _ => rfl⟩

/-- Two requests in a row are both made and both accepted, but exclude each other. -/
example (flag : FreezeFlag) : ∃ f' note memos sig f'' note' memos' sig',
    freezer1.freezeUser 2 ledF frzRand flag (frzUser flag) 7 = .ok (f', note, memos, sig) ∧
    f'.freezeUser 2 ledF frzRand flag (frzUser flag) 7 = .ok (f'', note', memos', sig') ∧
    validateTxnsBatch 2 ledF [.freeze note] 5 = .ok () ∧ validateTxnsBatch 2 ledF [.freeze note'] 5 = .ok () ∧
    validateTxnsBatch 2 ledF [.freeze note, .freeze note'] 5 ≠ .ok () := by
  obtain ⟨f', note, memos, sig, h1, -, -, h2⟩ := freezer1_frz flag
  obtain ⟨records, coin, chg, -, fr, -, h3, ⟨s1, s2, -, s3⟩, -⟩ := C64_did worldCarol h1
  obtain ⟨f'', note', memos', sig', h4, -, -, h5⟩ := freezes flag h3
    (carol_only (fun e he => by
      simp only [List.mem_cons, List.not_mem_nil, or_false] at he
      rcases he with rfl | rfl
      · exact .inl ⟨_, rfl⟩
      · exact .inr ⟨_, rfl⟩))
    (fun x => by
      obtain ⟨_, c, _, _, _, _, _, _, _, sp⟩ := Freezer.freezeUser_ok.1 h1
      rw [sp.freezer]
      cases flag <;> exact walletF_holds x)
    ⟨s1, s2, s3⟩
  refine ⟨f', note, memos, sig, f'', note', memos', sig', h1, h4, h2 5, h5 5, ?_⟩
  cases flag with
  | unfrozen => exact (C64_twice_false (x := (assetRec, 1)) ⟨_, rfl, List.mem_singleton.2 rfl⟩ h1 h4).2.2.1 2 ledF 5 [] [] []
  | frozen => exact (C64_twice_false (x := (frozenRec, 2)) ⟨_, rfl, List.mem_singleton.2 rfl⟩ h1 h4).2.2.1 2 ledF 5 [] [] []

/-- the block with the note can be inserted -/
theorem frz_block {flag : FreezeFlag} {f' : Freezer} {note : FreezeNote} {memos : List Toy.E.AeadCt} {sig : Toy.E.Sig}
    (ok : freezer1.freezeUser 2 ledF frzRand flag (frzUser flag) 7 = .ok (f', note, memos, sig)) :
    note.output_commitments.length = 4 ∧ memos.length = 3 ∧
      ∃ s', ledF.insertBlock 2 ⟨[.freeze note], (47 : ZMod p), bob.pubKey⟩ = .ok s' := by
  obtain ⟨records, coin, chg, h1, fr, -⟩ := C64_did worldCarol ok
  rw [frz_known] at h1
  cases h1
  have hl : note.output_commitments.length = 4 := by
    rw [fr.outputs]
    cases flag <;> rfl
  refine ⟨hl, by rw [fr.memos.1]; cases flag <;> rfl, ?_⟩
  have hins := (C52_partial (d := 2) (b := ⟨[.freeze note], (47 : ZMod p), bob.pubKey⟩) (s := ledF)
    (show Room 2 ledF 0 from ⟨by decide, by decide⟩)).1.2 ⟨by
      show Room 2 ledF ((note.output_commitments.length + 0) + 1)
      rw [hl]
      exact ⟨by decide, by decide⟩, by simp⟩
  exact ⟨_, C52_same.2 (Prod.ext rfl hins)⟩

/-- Bob gets his record back, at position 5. -/
example : ∃ f' note memos sig s' w, freezer1.freezeUser 2 ledF frzRand .frozen bob.address 7 = .ok (f', note, memos, sig) ∧
    World 2 .debug bob (seenF ++ [.block [(.freeze note, memos)] (47 : ZMod p) bob.pubKey 5]) s' w ∧
    ∃ ro, ro.amount = 40 ∧ ro.asset_def = asset ∧ ro.freeze_flag = .unfrozen ∧
      (w.Holds (ro, 5) ∨ ownNullifier bob (ro, 5) ∈ s'.nullifiers) := by
  obtain ⟨f', note, memos, sig, h1, -, -, valid⟩ := freezer1_frz .frozen
  obtain ⟨hl, hm, s', hs'⟩ := frz_block h1
  obtain ⟨w, -, -, hw⟩ := C59_scans (uid := 3) (worldF bob) (txns := [(.freeze note, memos)]) (time := 5) (valid 5) hs' rfl
    (by
      intro t ht
      obtain rfl := List.mem_singleton.1 ht
      show note.output_commitments.length = memos.length + 1
      rw [hl, hm])
  obtain ⟨records, coin, chg, hr, fr, -⟩ := C64_did worldCarol h1
  rw [show mapGet (frzUser .frozen) _ = _ from frz_known .frozen] at hr
  cases hr
  obtain ⟨uid, q1, q2, q3, q4, q5⟩ := C64_released fr (j := 0) (x := (frozenRec, 2)) rfl rfl rfl hw (pos := 3)
    ⟨seenF, _, _, _, _, [], [], [], rfl, rfl, rfl⟩
  obtain rfl : uid = 5 := Fin.ext q1
  exact ⟨f', note, memos, sig, s', w, h1, hw, _, q2, q3, q4, q5⟩

/-- what Alice can read of the memos of the note that freezes her record: not the dummies -/
theorem alice_dummies : ([((0 : ℕ), (dummiesAfter frzRand .unfrozen 1).1), (2, (dummiesAfter frzRand .unfrozen 1).2)].all
    (fun o => match ReceiverMemo.fromRo (frzRand.memos o.1) o.2 [] with
      | .ok c => !isOk (ReceiverMemo.decrypt c alice o.2.commitment [])
      | .error _ => false)) = true := by decide +kernel

theorem frozen_nullifiers : (([(assetRec, (1 : U64)), (flipped frzRand 0 (assetRec, 1), 5)] :
    List (RecordOpening × U64)).map (ownNullifier alice)).Nodup := by decide +kernel

/-- Alice's record is taken from her wallet, and nobody can spend it any more; asked again (before it has scanned the
block), the freezer makes a note that is refused. -/
example : ∃ f' note memos sig s' w, freezer1.freezeUser 2 ledF frzRand .unfrozen alice.address 7 = .ok (f', note, memos, sig) ∧
    World 2 .debug alice (seenF ++ [.told assetRec 1] ++ [.block [(.freeze note, memos)] (47 : ZMod p) bob.pubKey 5]) s' w ∧
    ¬ w.Holds (assetRec, 1) ∧
    (∀ t : TransactionNote, ownNullifier alice (assetRec, 1) ∈ t.nullifiers → validateTxnsBatch 2 s' [t] 6 ≠ .ok ()) ∧
    ∀ s rng f'' note' memos' sig', f'.freezeUser 2 s rng .unfrozen alice.address 7 = .ok (f'', note', memos', sig') →
      validateTxnsBatch 2 s' [.freeze note'] 6 ≠ .ok () := by
  obtain ⟨f', note, memos, sig, h1, -, -, valid⟩ := freezer1_frz .unfrozen
  obtain ⟨hl, hm, s', hs'⟩ := frz_block h1
  obtain ⟨w, -, -, hw⟩ := C59_scans (uid := 3) ((worldF alice).told (ro := assetRec) (uid := 1) rfl rfl rfl (by simp [ledF]))
    (txns := [(.freeze note, memos)]) (time := 5) (valid 5) hs' rfl
    (by
      intro t ht
      obtain rfl := List.mem_singleton.1 ht
      show note.output_commitments.length = memos.length + 1
      rw [hl, hm])
  obtain ⟨records, coin, chg, hr, fr, -⟩ := C64_did worldCarol h1
  rw [show mapGet (frzUser .unfrozen) _ = _ from frz_known .unfrozen] at hr
  cases hr
  have hat : ∀ {t : TransactionNote} {m : List Toy.E.AeadCt} {pos : ℕ},
      At (seenF ++ [.told assetRec 1] ++ [.block [(.freeze note, memos)] (47 : ZMod p) bob.pubKey 5]) t m pos →
      t = .freeze note ∧ m = memos ∧ pos = 3 := by
    intro t m pos a
    rcases a.cases with a | ⟨txns, blind, who, time, n, h1, h2, rfl⟩
    · exfalso
      obtain ⟨before, txns, blind, who, time, after, -, -, h1, -⟩ := a
      have : Seen.block txns blind who time ∈ seenF ++ [.told assetRec 1] := by rw [h1]; simp
      simp [seenF] at this
    · cases h1
      rcases h2.cases with ⟨h3, h4⟩ | ⟨m, -, h3⟩
      · cases h3
        exact ⟨rfl, rfl, by rw [h4]; rfl⟩
      · exact (nomatch h3.mem)
  have houts : Wallet.payMemos frzRand.memos 0 [(dummiesAfter frzRand .unfrozen 1).1, flipped frzRand 0 (assetRec, 1),
      (dummiesAfter frzRand .unfrozen 1).2] = .ok memos := by
    obtain ⟨records, c, info, chg, pk, vk, sk, outs, pending, sp⟩ := Freezer.freezeUser_ok.1 h1
    have hk := sp.known
    rw [frz_known] at hk
    cases hk
    have := sp.memos_ok
    rwa [(FreezeNote.generate_ok.1 sp.gen).outs_eq, allInputs_outputs] at this
  have hpay := Wallet.payMemos_ok houts
  have hcomm : note.output_commitments = [chg.commitment, (dummiesAfter frzRand .unfrozen 1).1.commitment,
      (flipped frzRand 0 (assetRec, 1)).commitment, (dummiesAfter frzRand .unfrozen 1).2.commitment] := fr.outputs
  have hdum := alice_dummies
  simp only [List.all_cons, List.all_nil, Bool.and_true, Bool.and_eq_true] at hdum
  have hr : ∀ x, Received alice (seenF ++ [.told assetRec 1] ++
      [.block [(.freeze note, memos)] (47 : ZMod p) bob.pubKey 5]) x →
      x ∈ [(assetRec, (1 : U64)), (flipped frzRand 0 (assetRec, 1), 5)] := by
    intro x hx
    cases hx with
    | told mem =>
      simp only [seenF, List.cons_append, List.nil_append, List.mem_cons, List.not_mem_nil, or_false, reduceCtorEq, false_or,
        Seen.told.injEq] at mem
      rw [mem.1, mem.2]
      exact List.mem_cons_self
    | memo a o m op p =>
      rename_i t ms pos j rc c ro uid
      obtain ⟨e1, e2, e3⟩ := hat a
      rw [e1, show (TransactionNote.freeze note).outputCommitments = _ from hcomm, List.getElem?_cons_succ] at o
      rw [e2] at m
      have hj : j < 3 := by
        have := (List.getElem?_eq_some_iff.1 m).1
        omega
      obtain rfl | rfl | rfl : j = 0 ∨ j = 1 ∨ j = 2 := by omega
      · obtain ⟨c', g1, g2⟩ := hpay.2 0 _ rfl
        rw [m] at g1
        have h3 := hdum.1
        rw [show ReceiverMemo.fromRo (frzRand.memos 0) _ [] = _ from g2] at h3
        dsimp only at h3
        rw [← Option.some.inj o] at op
        rw [← Option.some.inj g1, op] at h3
        cases h3
      · obtain ⟨c', g1, g2⟩ := hpay.2 1 _ rfl
        rw [m] at g1
        rw [← Option.some.inj o, Option.some.inj g1] at op
        have := C35_round_trip _ _ _ alice _ rfl g2
        rw [this] at op
        cases op
        rw [show uid = 5 from Fin.ext (by rw [p, e3]; rfl)]
        simp
      · obtain ⟨c', g1, g2⟩ := hpay.2 2 _ rfl
        rw [m] at g1
        have h3 := hdum.2
        rw [show ReceiverMemo.fromRo (frzRand.memos 2) _ [] = _ from g2] at h3
        dsimp only at h3
        rw [← Option.some.inj o] at op
        rw [← Option.some.inj g1, op] at h3
        cases h3
    | change wt a o p =>
      simp [seenF] at wt
  have apart : Apart alice (seenF ++ [.told assetRec 1] ++
      [.block [(.freeze note, memos)] (47 : ZMod p) bob.pubKey 5]) := by
    refine ⟨fun x y hx hy hn => List.inj_on_of_nodup_map frozen_nullifiers (hr x hx) (hr y hy) hn,
      fun x hx t m pos a hp => ?_⟩
    exfalso
    have h1 := hr x hx
    have : x.2.val ≤ 5 := by
      simp only [List.mem_cons, List.not_mem_nil, or_false] at h1
      rcases h1 with rfl | rfl <;> decide
    obtain ⟨rfl, -, rfl⟩ := hat a
    have hl : (TransactionNote.freeze note).outputCommitments.length = 4 := hl
    omega
  have hnul := owner_nullifier (x := (assetRec, 1)) (k' := alice) holder1 rfl rfl
  refine ⟨f', note, memos, sig, s', w, h1, hw, ?_, fun t ht => ?_, fun s rng f'' note' memos' sig' ok' => ?_⟩
  · exact C64_taken holder1 fr (List.mem_singleton.2 rfl) rfl rfl hw apart (List.mem_singleton.2 rfl)
  · rw [hnul] at ht
    exact C64_settled (d' := 2) fr (x := (assetRec, 1)) (List.mem_singleton.2 rfl) (List.mem_singleton.2 rfl) hs'
      (List.mem_singleton.2 rfl) ht
  · obtain ⟨-, -, -, -, -, -, -, ⟨s1, -, -, s3⟩, -⟩ := C64_did worldCarol h1
    have hl' : f'.Lists .unfrozen alice.address (assetRec, 1) := ⟨_, by rw [s3]; rfl, List.mem_singleton.2 rfl⟩
    refine C64_spent_false hl' ?_ ok' 2 6 (List.mem_singleton.2 rfl)
    obtain ⟨_, -, -, -, hn, -⟩ := LedgerState.insertBlock_ok hs'
    rw [show f'.nullifier (assetRec, 1) = freezer1.nullifier (assetRec, 1) by unfold Freezer.nullifier; rw [s1]]
    exact (hn _).2 (.inl (List.mem_flatMap.2 ⟨_, List.mem_singleton.2 rfl, fr.spends (List.mem_singleton.2 rfl)⟩))

end Cap.Examples
