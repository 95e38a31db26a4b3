/-
C44: histories of the reference ledger conserve value.

status: proved
note: Along every history of any length whose notes were made by the library and accepted by the reference validator, for every asset except the dummy the value of all unspent records is exactly what was granted plus what the mint notes of this asset published (C44_history, C44_block, C44_native for the native asset), and every record is spent at most once (C44_history: spentAt has no repetitions; each spend is of the record at that position). The hypothesis NoCollision says that the hash evaluations this history makes do not collide; it is about the values of the history, not about the hash functions, and is met by the example. The claim needs the notes to be made by the library: FALSE for arbitrary accepted notes, for every instantiation (C44_accepted_false: from a granted native record of any amount, one block with one accepted mint note creates a native fee record of any amount up to 2^128-1).
-/
import Verif.Lemmas.LedgerAccept
import Verif.Lemmas.ForgeMintFreeze
import Verif.Model.ToyNotes

namespace Cap

open Spec

variable [E : CapEnv] [S : CapExt]

/-- **Histories conserve value.**  After any honest history: the tree holds exactly the created records; for every
asset the unspent records are worth what was granted and minted of it; no position is spent twice; and what is spent is
the record at that position (up to the owner's encryption key, which commitments do not cover). -/
theorem C44_history {d : Fin 256} {h : List Event} {s : LedgerState} (reached : run d h = .ok s) (honest : Honest d h)
    (no_collision : NoCollision d (created h) (spends h)) :
    s.leaves = (created h).map RecordOpening.commitment ∧
    (∀ c, c ≠ dummyCode → totalOf c (unspent h) = issued c h) ∧
    (spentAt h).Nodup ∧
    ∀ x ∈ spends h, ∃ r, (created h)[x.2.uid.val]? = some r ∧ r.amount = x.1.amount ∧ r.asset_def = x.1.asset_def ∧
      r.pub_key.address = x.1.pub_key.address ∧ r.freeze_flag = x.1.freeze_flag ∧ r.blind = x.1.blind := by
  have i := inv_run h reached honest no_collision
  exact ⟨i.leaves, i.value, i.nodup, i.found⟩

/-- **One block.**  A block changes the value of an asset exactly by what its mint notes of that asset publish. -/
theorem C44_block {d : Fin 256} {h : List Event} {ts : List Txn} {blind : F} {who : UserPubKey} {time : U64}
    {s : LedgerState} (reached : run d (h ++ [.block ts blind who time]) = .ok s)
    (honest : Honest d (h ++ [.block ts blind who time]))
    (no_collision : NoCollision d (created (h ++ [.block ts blind who time])) (spends (h ++ [.block ts blind who time])))
    {c : AssetCode} (not_dummy : c ≠ dummyCode) :
    totalOf c (unspent (h ++ [.block ts blind who time])) = totalOf c (unspent h) + mintedBy c ts := by
  have i := inv_run _ reached honest no_collision
  obtain ⟨s1, h1, -⟩ := runFrom_append.1 reached
  rw [created_append, spends_append] at no_collision
  have i1 := inv_run h h1 (fun e he => honest e (List.mem_append_left _ he))
    (no_collision.mono (fun x hx => List.mem_append_left _ hx))
  rw [i.value c not_dummy, i1.value c not_dummy, issued_append]
  rfl

/-- **The native asset.**  Blocks never change the native value, if none of the minted codes is the native code.  (A
made mint note mints the code derived from its seed and description, so that this would be a preimage of the native
code.) -/
theorem C44_native {d : Fin 256} {h : List Event} {ts : List Txn} {blind : F} {who : UserPubKey} {time : U64}
    {s : LedgerState} (reached : run d (h ++ [.block ts blind who time]) = .ok s)
    (honest : Honest d (h ++ [.block ts blind who time]))
    (no_collision : NoCollision d (created (h ++ [.block ts blind who time])) (spends (h ++ [.block ts blind who time])))
    (no_preimage : ∀ t ∈ ts, ∀ n, t.note = .mint n → ∀ ac_seed desc, n.mint_asset_def.code = newDomestic ac_seed desc →
      newDomestic ac_seed desc ≠ nativeCode) :
    totalOf nativeCode (unspent (h ++ [.block ts blind who time])) = totalOf nativeCode (unspent h) := by
  rw [C44_block reached honest no_collision native_ne_dummy]
  have : ∀ t ∈ ts, Txn.minted nativeCode t = 0 := by
    intro t ht
    have hm := honest (.block ts blind who time) (List.mem_append_right _ List.mem_cons_self) t ht
    have hp := no_preimage t ht
    cases hm with
    | transfer keys gen => rfl
    | freeze keys gen => rfl
    | mint keys gen =>
      obtain ⟨-, h2, -, -, -, -, h7⟩ := C18_fields gen
      have hc := hp _ rfl _ _ (by rw [h2]; exact h7)
      unfold Txn.minted
      dsimp only
      rw [if_neg (by rw [h2, h7]; exact hc)]
  rw [mintedBy_eq]
  have : (ts.map (Txn.minted nativeCode)).sum = 0 := by
    rw [List.sum_eq_zero_iff]
    intro x hx
    obtain ⟨t, ht, rfl⟩ := List.mem_map.1 hx
    exact this t ht
  omega

/-- **Negation for accepted notes.**  On a ledger whose only record is a native one, of whatever amount, its owner can
make a mint note that the validator accepts, after which the proposer's fee record of any chosen amount is in the tree. -/
theorem C44_accepted_false (complete : SnarkComplete) (batch : SnarkBatch) {d : Fin 256} (deep : 2 ≤ d.val)
    {pk : MintProvingKey} {vk : MintVerifyingKey} (keys : mintPreprocess d = .ok (pk, vk))
    {ro : RecordOpening} {k : UserKeyPair} (native : ro.asset_def = AssetDefinition.native)
    (unfrozen : ro.freeze_flag = .unfrozen) (owner : ro.pub_key.address = k.address) (fee : Amount)
    (blind : F) (who : UserPubKey) (time : U64) :
    ∃ (n : MintNote) (s : LedgerState),
      run d [.grant ro, .block [⟨.mint n, [], []⟩] blind who time] = .ok s ∧
      (feeRecord who fee blind).commitment ∈ s.leaves := by
  obtain ⟨π, ho, hv, hv'⟩ := mint_forge complete keys (fee_ro := ro)
    (mint_ro := ⟨0, ⟨domesticFromInternal (internalCode 0 0), AssetPolicy.default⟩, ro.pub_key, .unfrozen, 0⟩) (k := k)
    (fee := fee) (acc := ⟨0, treePath d.val [ro.commitment] 0⟩) (seed := 0) (digest := 0) native unfrozen owner
    (treePath_length _ _ _) rfl (by norm_num) rfl
  have h9 : 9 ≤ 3 ^ d.val := le_trans (by norm_num) (Nat.pow_le_pow_right (by norm_num) deep)
  have hroot : spendRoot ro.toV ⟨0, treePath d.val [ro.commitment] 0⟩ = treeRoot d.val [ro.commitment] := by
    unfold spendRoot
    rw [RecordOpening.toV_commitment]
    have := treePath_root (d := d.val) (leaves := [ro.commitment]) (uid := 0) (c := ro.commitment)
      (by simp only [List.length_singleton]; omega) rfl
    rwa [Nat.cast_zero] at this
  generalize hn : mintForgeNote ro
    ⟨0, ⟨domesticFromInternal (internalCode 0 0), AssetPolicy.default⟩, ro.pub_key, .unfrozen, 0⟩ k fee
    ⟨0, treePath d.val [ro.commitment] 0⟩ 0 0 π = n at ho hv hv'
  have hnroot : n.aux_info.merkle_root = treeRoot d.val [ro.commitment] := by rw [← hn]; exact hroot
  have hnfee : n.aux_info.fee = fee := by rw [← hn]; rfl
  have hver : n.verify vk n.aux_info.merkle_root = .ok () := by
    rw [hnroot, ← hroot]
    exact hv rfl
  -- after the grant
  let s1 : LedgerState := ⟨[ro.commitment], [], [treeRoot d.val [ro.commitment], treeRoot d.val []]⟩
  have hs1 : (Event.grant ro).apply d (LedgerState.new d.val) = .ok s1 := by
    show LedgerState.grant d.val (LedgerState.new d.val) ro = _
    unfold LedgerState.grant LedgerState.insertRecord
    rw [if_pos ⟨by simp only [LedgerState.new, LedgerState.storeRoot, List.length_nil]; omega, by
      simp [LedgerState.new, LedgerState.storeRoot]⟩]
    rfl
  -- the block is valid
  have hval : validateTxnsBatch d s1 [.mint n] time = .ok () := by
    have hl := validateLoop_intro (d := d) (s := s1) (ts := [.mint n]) (checked := []) (ks := [.mint vk])
      (by
        intro t ht
        obtain rfl := List.mem_singleton.1 ht
        show n.aux_info.merkle_root ∈ _
        rw [hnroot]
        exact List.mem_cons_self)
      (by simp [TransactionNote.nullifiers])
      (by simp [TransactionNote.nullifiers, s1])
      (.cons (by simp only [keyForNote, keys, unwrapRes]; rfl) .nil)
    rw [validateTxnsBatch, bind_ok_iff]
    refine ⟨_, hl, ?_⟩
    refine ((C21_partial batch (by simp) ?_).2 ⟨rfl, rfl, ?_⟩).1
    · intro i t v ht hv
      cases i with
      | zero =>
        simp only [List.getElem?_cons_zero, Option.some.injEq] at ht hv
        subst ht hv
        trivial
      | succ i => simp at ht
    · intro i t r v ht hr hk
      cases i with
      | zero =>
        simp only [List.map_cons, List.map_nil, List.getElem?_cons_zero, Option.some.injEq] at ht hr hk
        subst ht hr hk
        exact hver
      | succ i => simp at ht
  -- the block is inserted
  have hins : ∃ s, s1.insertBlock d.val ⟨[.mint n], blind, who⟩ = .ok s := by
    have hfee : calculateFee [.mint n] = .ok fee := by
      rw [calculateFee_ok]
      simp [TransactionNote.fee, hnfee]
    have step : ∀ (s : LedgerState) (x : F), s.leaves.length ≤ 3 →
        LedgerState.insertRecord d.val s x = .ok { s with leaves := s.leaves ++ [x] } := by
      intro s x hs
      unfold LedgerState.insertRecord
      rw [if_pos ⟨by omega, by
        have : (4 : ℕ) < 2 ^ 64 := by norm_num
        omega⟩]
    refine ⟨_, bind_ok_iff.2 ⟨_, bind_ok_iff.2 ⟨_, bind_ok_iff.2 ⟨_, step _ _ ?_, bind_ok_iff.2 ⟨_, step _ _ ?_, rfl⟩⟩, rfl⟩,
      bind_ok_iff.2 ⟨_, bind_ok_iff.2 ⟨fee, hfee, rfl⟩, bind_ok_iff.2 ⟨_, step _ _ ?_, rfl⟩⟩⟩⟩
    · simp [s1]
    · simp [s1]
    · simp [s1, LedgerState.insertNullifiers]
  obtain ⟨s, hs⟩ := hins
  refine ⟨n, s, ?_, ?_⟩
  · refine bind_ok_iff.2 ⟨s1, hs1, bind_ok_iff.2 ⟨s, bind_ok_iff.2 ⟨(), hval, hs⟩, rfl⟩⟩
  · obtain ⟨fee', hf, e1, -⟩ := LedgerState.insertBlock_ok hs
    rw [calculateFee_ok] at hf
    have : fee' = fee := by
      refine Fin.ext ?_
      rw [← hf]
      simp [TransactionNote.fee, hnfee]
    rw [e1, this]
    simp

end Cap

namespace Cap.Examples
open Toy Spec

/-! A history: two grants, a block in which Alice pays 60 native units to Bob, a block in which Bob mints an asset,
paying the fee with the record received. -/

/-- the leaves before the first block -/
def tree1 : List (ZMod p) := [feeRec.commitment, assetRec.commitment]
/-- the input of the first note -/
def in1 : List TransferNoteInput := [⟨feeRec, ⟨treePath 2 tree1 0, treeRoot 2 tree1, 0⟩, alice, none⟩]
/-- the payment -/
def bobs : RecordOpening := ⟨60, AssetDefinition.native, bob.pubKey, .unfrozen, 45⟩
/-- the change -/
def chg1 : RecordOpening := ⟨37, AssetDefinition.native, alice.pubKey, .unfrozen, 46⟩
/-- keys of the first note -/
noncomputable def pk1 : TransferProvingKey := ⟨.transfer 1 2 2, 1, 2, 2⟩
/-- keys of the first note -/
noncomputable def vk1 : TransferVerifyingKey := ⟨.transfer 1 2 2, 1, 2, 2⟩

theorem keys1 : transferPreprocess 1 2 2 = .ok (pk1, vk1) := rfl
theorem ok1 : isOk (TransferNote.generate .release rng in1 [chg1, bobs] pk1 800 []) = true := by decide +kernel

/-- the first note -/
noncomputable def note1 : TransferNote :=
  (okVal (TransferNote.generate .release rng in1 [chg1, bobs] pk1 800 []) ok1).1
/-- its memo signing key -/
noncomputable def sk1 : Fr := (okVal (TransferNote.generate .release rng in1 [chg1, bobs] pk1 800 []) ok1).2

theorem note1_eq : TransferNote.generate .release rng in1 [chg1, bobs] pk1 800 [] = .ok (note1, sk1) :=
  okVal_eq2 _ ok1

attribute [irreducible] note1 sk1

/-- the first note, with its records -/
noncomputable def txn1 : Txn := ⟨.transfer note1, in1.map (fun i => (i.ro, i.acc)), [chg1, bobs]⟩

theorem made1 : Made 2 txn1 := .transfer keys1 note1_eq

/-- the leaves before the second block -/
def tree2 : List (ZMod p) :=
  tree1 ++ [chg1.commitment, bobs.commitment, (feeRecord bob.pubKey 3 (47 : ZMod p)).commitment]
/-- the fee of the second note -/
def fee2 : TxnFeeInfo :=
  ⟨⟨bobs, ⟨treePath 2 tree2 3, treeRoot 2 tree2, 3⟩, bob⟩, 5, ⟨55, AssetDefinition.native, bob.pubKey, .unfrozen, 48⟩⟩
/-- keys of the second note -/
noncomputable def pk2 : MintProvingKey := ⟨.mint 2, 2⟩
/-- keys of the second note -/
noncomputable def vk2 : MintVerifyingKey := ⟨.mint 2, 2⟩

theorem keys2 : mintPreprocess 2 = .ok (pk2, vk2) := rfl
theorem ok2 : isOk (MintNote.generate rng mintRec seed desc fee2 pk2) = true := by decide +kernel

/-- the second note -/
noncomputable def note2 : MintNote := (okVal (MintNote.generate rng mintRec seed desc fee2 pk2) ok2).1
/-- its memo signing key -/
noncomputable def sk2 : Fr := (okVal (MintNote.generate rng mintRec seed desc fee2 pk2) ok2).2

theorem note2_eq : MintNote.generate rng mintRec seed desc fee2 pk2 = .ok (note2, sk2) :=
  okVal_eq2 _ ok2

attribute [irreducible] note2 sk2

/-- the second note, with its records -/
noncomputable def txn2 : Txn := ⟨.mint note2, [(fee2.fee_input.ro, fee2.fee_input.acc)], [fee2.fee_chg_ro, mintRec]⟩

theorem made2 : Made 2 txn2 := .mint keys2 note2_eq

/-- the history -/
noncomputable def hist : List Event :=
  [.grant feeRec, .grant assetRec, .block [txn1] 47 bob.pubKey 700, .block [txn2] 49 bob.pubKey 701]

theorem hist_honest : Honest 2 hist := by
  intro e he t ht
  unfold hist at he
  simp only [List.mem_cons, List.not_mem_nil, or_false] at he
  rcases he with rfl | rfl | rfl | rfl
  · simp [Event.txns] at ht
  · simp [Event.txns] at ht
  · simp only [Event.txns, List.mem_singleton] at ht; subst ht; exact made1
  · simp only [Event.txns, List.mem_singleton] at ht; subst ht; exact made2

theorem note1_root : note1.aux_info.merkle_root = treeRoot 2 tree1 := by
  obtain ⟨-, -, -, -, -, h, -⟩ := C40_generate note1_eq
  exact ((h _ List.mem_cons_self (by decide)).2).symm
theorem note2_root : note2.aux_info.merkle_root = treeRoot 2 tree2 := by
  obtain ⟨-, -, -, -, -, h, -⟩ := C18_fields note2_eq
  exact h
theorem note1_fee : note1.aux_info.fee = 3 := by decide +kernel
theorem note1_nullifiers : note1.inputs_nullifiers = [userNullifier feeRec ⟨treePath 2 tree1 0, treeRoot 2 tree1, 0⟩ alice] :=
  transfer_nullifiers note1_eq
theorem note2_nullifier : note2.input_nullifier =
    userNullifier fee2.fee_input.ro fee2.fee_input.acc fee2.fee_input.owner_keypair :=
  mint_nullifier note2_eq
theorem note1_outputs : note1.output_commitments = [chg1.commitment, bobs.commitment] := transfer_commitments note1_eq

/-- the ledger after the grants -/
def led0 : LedgerState :=
  ⟨tree1, [], [treeRoot 2 tree1, treeRoot 2 [feeRec.commitment], treeRoot 2 []]⟩
/-- the ledger after the first block -/
noncomputable def led1 : LedgerState :=
  ⟨tree2, note1.inputs_nullifiers, [treeRoot 2 tree2, treeRoot 2 tree1, treeRoot 2 [feeRec.commitment], treeRoot 2 []]⟩

theorem room {s : LedgerState} {x : F} (h : s.leaves.length < 9) :
    LedgerState.insertRecord 2 s x = .ok { s with leaves := s.leaves ++ [x] } := by
  unfold LedgerState.insertRecord
  rw [if_pos ⟨by norm_num; omega, by norm_num; omega⟩]

theorem hist_start : run 2 [.grant feeRec, .grant assetRec] = .ok led0 := by
  refine bind_ok_iff.2 ⟨_, bind_ok_iff.2 ⟨_, room ?_, rfl⟩, bind_ok_iff.2 ⟨_, bind_ok_iff.2 ⟨_, room ?_, rfl⟩, rfl⟩⟩
  · exact Nat.zero_lt_succ _
  · exact Nat.succ_lt_succ (Nat.zero_lt_succ _)

theorem led1_ok : led0.insertBlock 2 ⟨[txn1.note], (47 : ZMod p), bob.pubKey⟩ = .ok led1 := by
  have h1 : LedgerState.insertRecords 2 led0 note1.output_commitments =
      .ok { led0 with leaves := tree1 ++ [chg1.commitment, bobs.commitment] } := by
    rw [note1_outputs]
    exact bind_ok_iff.2 ⟨_, room (by decide), bind_ok_iff.2 ⟨_, room (by decide), rfl⟩⟩
  have hf : calculateFee [txn1.note] = .ok 3 := by
    rw [calculateFee_ok]
    show note1.aux_info.fee.val + 0 = 3
    rw [note1_fee]
    rfl
  refine bind_ok_iff.2 ⟨_, bind_ok_iff.2 ⟨_, bind_ok_iff.2 ⟨_, h1, rfl⟩, rfl⟩,
    bind_ok_iff.2 ⟨_, bind_ok_iff.2 ⟨3, hf, rfl⟩, bind_ok_iff.2 ⟨_, room (by decide), ?_⟩⟩⟩
  refine congrArg Except.ok ?_
  unfold led1 LedgerState.storeRoot LedgerState.insertNullifiers
  dsimp only [led0, List.append_nil]
  rw [show tree1 ++ [chg1.commitment, bobs.commitment] ++ [(feeRecord bob.pubKey 3 (47 : ZMod p)).commitment] = tree2 from rfl,
    List.append_nil]

theorem valid1 : validateTxnsBatch 2 led0 [txn1.note] 700 = .ok () := by
  refine validate_made Toy.complete Toy.batch (ts := [txn1]) (by simp) ?_ ?_ ?_ ?_ ?_
  · intro t ht; obtain rfl := List.mem_singleton.1 ht; exact made1
  · intro t ht
    obtain rfl := List.mem_singleton.1 ht
    show (700 : U64) ≤ note1.aux_info.valid_until
    rw [(C17_generate keys1 Toy.complete note1_eq).1]
    decide
  · intro t ht
    obtain rfl := List.mem_singleton.1 ht
    show note1.aux_info.merkle_root ∈ _
    rw [note1_root]
    exact List.mem_cons_self
  · show (note1.inputs_nullifiers ++ []).Nodup
    rw [note1_nullifiers]
    simp
  · intro t ht
    simp [led0]

theorem valid2 : validateTxnsBatch 2 led1 [txn2.note] 701 = .ok () := by
  refine validate_made Toy.complete Toy.batch (ts := [txn2]) (by simp) ?_ ?_ ?_ ?_ ?_
  · intro t ht; obtain rfl := List.mem_singleton.1 ht; exact made2
  · intro t ht
    obtain rfl := List.mem_singleton.1 ht
    show note2.mint_amount.val < 2 ^ 127
    rw [(C18_fields note2_eq).1]
    decide
  · intro t ht
    obtain rfl := List.mem_singleton.1 ht
    show note2.aux_info.merkle_root ∈ _
    rw [note2_root]
    exact List.mem_cons_self
  · show [note2.input_nullifier].Nodup
    simp
  · intro t ht x hx
    obtain rfl := List.mem_singleton.1 ht
    obtain rfl := List.mem_singleton.1 (show x ∈ [note2.input_nullifier] from hx)
    show note2.input_nullifier ∉ note1.inputs_nullifiers
    rw [note1_nullifiers, note2_nullifier]
    decide +kernel

theorem led2_ok : isOk (led1.insertBlock 2 ⟨[txn2.note], (49 : ZMod p), bob.pubKey⟩) = true := by decide +kernel
/-- the ledger after the second block -/
noncomputable def led2 : LedgerState := okVal (led1.insertBlock 2 ⟨[txn2.note], (49 : ZMod p), bob.pubKey⟩) led2_ok

theorem hist_run : run 2 hist = .ok led2 := by
  have h1 : runFrom 2 (LedgerState.new 2) ([.grant feeRec, .grant assetRec] ++ [.block [txn1] 47 bob.pubKey 700]) =
      .ok led1 := runFrom_append.2 ⟨led0, hist_start, bind_ok_iff.2 ⟨(), valid1, led1_ok⟩⟩
  exact runFrom_append.2 ⟨led1, h1, bind_ok_iff.2 ⟨(), valid2, okVal_eq _ led2_ok⟩⟩

theorem note2_fee : note2.aux_info.fee = 5 := (C18_fields note2_eq).2.2.2.2.1

/-- the records of the history -/
def records1 : List RecordOpening :=
  [feeRec, assetRec, chg1, bobs, feeRecord bob.pubKey 3 (47 : ZMod p), fee2.fee_chg_ro, mintRec,
    feeRecord bob.pubKey 5 (49 : ZMod p)]
/-- the spends of the history -/
def spends1 : List (RecordOpening × AccMemberWitness) :=
  [(feeRec, ⟨treePath 2 tree1 0, treeRoot 2 tree1, 0⟩), (bobs, ⟨treePath 2 tree2 3, treeRoot 2 tree2, 3⟩)]

theorem hist_created : created hist = records1 := by
  have h1 : collected [txn1] = 3 := by
    show Fin.ofNat (2 ^ 128) (note1.aux_info.fee.val + 0) = 3
    rw [note1_fee]
    rfl
  have h2 : collected [txn2] = 5 := by
    show Fin.ofNat (2 ^ 128) (note2.aux_info.fee.val + 0) = 5
    rw [note2_fee]
    rfl
  show [feeRec, assetRec, chg1, bobs, feeRecord bob.pubKey (collected [txn1]) 47, fee2.fee_chg_ro, mintRec,
    feeRecord bob.pubKey (collected [txn2]) 49] = _
  rw [h1, h2]
  rfl
theorem hist_spends : spends hist = spends1 := by
  have h1 : txn1.realSpends = [(feeRec, ⟨treePath 2 tree1 0, treeRoot 2 tree1, 0⟩)] := List.filter_cons_of_pos (by decide +kernel)
  have h2 : txn2.realSpends = [(bobs, ⟨treePath 2 tree2 3, treeRoot 2 tree2, 3⟩)] := List.filter_cons_of_pos (by decide +kernel)
  show txn1.realSpends ++ [] ++ (txn2.realSpends ++ [] ++ []) = _
  rw [h1, h2]
  rfl

/-- the commitments of the records, evaluated -/
def leaves1 : List (ZMod p) :=
  [15099072685262052290503743200317640904990534995513590499178410549361113645773,
    4186991084861913266801412529182665709573377250186472337677401855179924969930,
    15114073162268883348419063961520493936177298284761282251473667455326613457127,
    15113073149269048353865126358943153846973322754143555881465747961199299019750,
    15115073164268355337529952612804450794987589441501422835726836191427094985253,
    15116073252270665369210224369386873306434835082278098459427026841328896728338,
    4198992466900391808337125973886076448034131528815010799858684787810366656555,
    15117073238269609350400041713242824366715727253440243661386795794977702402429]
/-- the node hashes of the paths, evaluated -/
def calls1 : List (ZMod p × ZMod p × ZMod p) :=
  [(15099072685262052290503743200317640904990534995513590499178410550361191647294,
    4186991084861913266801412529182665709573377250186472337677401856180003971490,
    0),
    (5452745159827540493253383109738319895647613865501785340148991108662358970232,
    0,
    0),
    (15113073149269048353865126358943153846973322754143555881465747962199380021388,
    15115073164268355337529952612804450794987589441501422835726836192427176986930,
    0),
    (20566818322096423841672447071258813831824912150263067591622658564989052428958,
    11915437419563422544919325315054601793209122017406202175766550780639727558817,
    0)]

theorem leaves1_eq : records1.map (·.commitment) = leaves1 := by decide +kernel
theorem calls1_eq : spends1.flatMap (fun s => pathCalls (E.leafHash (s.2.uid.val : F) s.1.commitment) s.2.path) =
    calls1 := by
  have e1 : tree1 = leaves1.take 2 := by decide +kernel
  have e2 : tree2 = leaves1.take 5 := by decide +kernel
  unfold spends1
  rw [e1, e2]
  decide +kernel

theorem hist_noCollision : NoCollision 2 (created hist) (spends hist) := by
  rw [hist_created, hist_spends]
  refine ⟨?_, ?_, ?_, ?_, ?_⟩
  · rw [leaves1_eq, calls1_eq]
    have h : (((List.range 9).flatMap (fun k => nodeCalls (leaves1.take k) 2 0)).all (fun x => calls1.all (fun y =>
        decide (E.nodeHash x.1 x.2.1 x.2.2 = E.nodeHash y.1 y.2.1 y.2.2 → x = y)))) = true := by decide +kernel
    intro x hx y hy
    exact of_decide_eq_true (List.all_eq_true.1 (List.all_eq_true.1 h x hx) y hy)
  · rw [calls1_eq]
    have h : (calls1.all (fun y => decide (E.nodeHash y.1 y.2.1 y.2.2 ≠ (0 : ZMod p)))) = true := by decide +kernel
    intro y hy
    exact of_decide_eq_true (List.all_eq_true.1 h y hy)
  · rw [leaves1_eq]
    have h : ((leafCalls leaves1).all (fun x => spends1.all (fun s =>
        decide (E.leafHash x.1 x.2 = E.leafHash (s.2.uid.val : F) s.1.commitment →
          x = ((s.2.uid.val : F), s.1.commitment))))) = true := by decide +kernel
    intro x hx y hy
    exact of_decide_eq_true (List.all_eq_true.1 (List.all_eq_true.1 h x hx) y hy)
  · decide +kernel
  · decide +kernel

/-- the history meets the hypotheses of `C44_history`; the native value stays 100, the asset goes from 50 to 1050 -/
example : run 2 hist = .ok led2 ∧ Honest 2 hist ∧ NoCollision 2 (created hist) (spends hist) ∧
    totalOf nativeCode (unspent hist) = 100 ∧ totalOf asset.code (unspent hist) = 1050 ∧
    spentAt hist = [0, 3] := by
  refine ⟨hist_run, hist_honest, hist_noCollision, ?_, ?_, ?_⟩ <;> decide +kernel

/-- the minted code of the example is not the native code -/
example : newDomestic seed desc ≠ (nativeCode : ZMod p) := by decide +kernel

/-- `C44_accepted_false` in the toy instantiation: nothing becomes `2^127` -/
example : ∃ (n : MintNote) (s : LedgerState),
    run 2 [.grant { feeRec with amount := 0 }, .block [⟨.mint n, [], []⟩] 0 bob.pubKey 0] = .ok s ∧
    (feeRecord bob.pubKey ⟨2 ^ 127, by norm_num⟩ 0).commitment ∈ s.leaves :=
  C44_accepted_false Toy.complete Toy.batch (d := 2) (by decide) keys2 (ro := { feeRec with amount := 0 }) (k := alice)
    rfl rfl rfl _ _ _ _

end Cap.Examples
