/-
C51: the reference validator accepts exactly the fresh blocks, and the proposer gets the fees.

status: proved
note: For a non-empty block of notes made by the library (mints below 2^127): validation succeeds if and only if no transfer has expired, every root is a root the ledger had at the end of some block, and no nullifier occurs twice in the block or in the ledger (C51_made). For arbitrary notes C51_any says exactly what is checked (which leaves out the domestic check of mints, see C21). C51_single: validating a transfer note alone is the same as validating it in a block of one. C51_propose, C51_propose_ok: a proposed block is signed so that everybody who expects this proposer decides about it as about its transactions and everybody who expects somebody else refuses it. C51_fee_record: after insertion the leaf behind the outputs of the block is the commitment of the proposer's record opening, worth exactly the sum of the fees.
-/
import Verif.Lemmas.Validator
import Verif.Props.C44

namespace Cap

open Spec

variable [E : CapEnv] [S : CapExt]

/-- **What validation means, for arbitrary notes.** -/
theorem C51_any (batch : SnarkBatch) {d : Fin 256} {s : LedgerState} {txns : List TransactionNote} {time : U64}
    (ne : txns ≠ []) :
    validateTxnsBatch d s txns time = .ok () ↔
      (∀ t ∈ txns, t.merkleRoot ∈ s.roots) ∧ (txns.flatMap TransactionNote.nullifiers).Nodup ∧
      (∀ t ∈ txns, ∀ x ∈ t.nullifiers, x ∉ s.nullifiers) ∧
      ∀ t ∈ txns, ∃ k, keyForNote d t = .ok k ∧ CheckedInBatch time t t.merkleRoot k := by
  constructor
  · intro h
    obtain ⟨h1, h2, h3, ks, h4, h5⟩ := validateTxnsBatch_ok h
    refine ⟨h1, h2, fun t ht x hx => h3 x (List.mem_flatMap.2 ⟨t, ht, hx⟩), fun t ht => ?_⟩
    obtain ⟨-, hl, hc⟩ := (C21_sound batch ne).1 h5
    obtain ⟨k, hk, rfl⟩ := List.mem_iff_getElem.1 ht
    refine ⟨ks[k], ?_, ?_⟩
    · have := (List.forall₂_iff_get.1 h4).2 k hk (hl ▸ hk)
      simpa using this
    · exact hc k _ _ _ (List.getElem?_eq_getElem hk) (by simp [hk]) (List.getElem?_eq_getElem (hl ▸ hk))
  · rintro ⟨h1, h2, h3, h4⟩
    have hks : ∃ ks, List.Forall₂ (fun t k => keyForNote d t = .ok k ∧ CheckedInBatch time t t.merkleRoot k) txns ks := by
      clear h1 h2 h3 ne
      induction txns with
      | nil => exact ⟨[], .nil⟩
      | cons t ts ih =>
        obtain ⟨k, hk⟩ := h4 t List.mem_cons_self
        obtain ⟨ks, hks⟩ := ih (fun t' h' => h4 t' (List.mem_cons_of_mem _ h'))
        exact ⟨k :: ks, .cons hk hks⟩
    obtain ⟨ks, hks⟩ := hks
    have hl := validateLoop_intro (d := d) (s := s) (checked := []) (ks := ks) h1 h2
      (by
        intro x hx
        obtain ⟨t, ht, hx⟩ := List.mem_flatMap.1 hx
        exact ⟨h3 t ht x hx, by simp⟩)
      (hks.imp (fun _ _ h => h.1))
    rw [validateTxnsBatch, bind_ok_iff]
    refine ⟨_, hl, (C21_sound batch ne).2 ⟨by simp, hks.length_eq, ?_⟩⟩
    intro k t root vk ht hr hv
    obtain ⟨hk1, rfl⟩ := List.getElem?_eq_some_iff.1 ht
    obtain ⟨hk2, rfl⟩ := List.getElem?_eq_some_iff.1 hv
    obtain ⟨hk3, rfl⟩ := List.getElem?_eq_some_iff.1 hr
    have := ((List.forall₂_iff_get.1 hks).2 k hk1 hk2).2
    simpa using this

/-- **Blocks of made notes.**  Exactly the fresh ones are accepted. -/
theorem C51_made (complete : SnarkComplete) (batch : SnarkBatch) {d : Fin 256} {s : LedgerState} {ts : List Txn}
    {time : U64} (ne : ts ≠ []) (made : ∀ t ∈ ts, Made d t)
    (mints : ∀ t ∈ ts, ∀ n, t.note = .mint n → n.mint_amount.val < 2 ^ 127) :
    validateTxnsBatch d s (ts.map (·.note)) time = .ok () ↔
      (∀ t ∈ ts, ∀ n, t.note = .transfer n → time ≤ n.aux_info.valid_until) ∧
      (∀ t ∈ ts, t.note.merkleRoot ∈ s.roots) ∧
      (ts.flatMap (fun t => t.note.nullifiers)).Nodup ∧
      ∀ t ∈ ts, ∀ x ∈ t.note.nullifiers, x ∉ s.nullifiers := by
  constructor
  · intro h
    obtain ⟨h1, h2, h3, h4⟩ := (C51_any batch (by simpa using ne)).1 h
    simp only [List.mem_map, forall_exists_index, and_imp, forall_apply_eq_imp_iff₂, List.flatMap_map] at h1 h2 h3 h4
    refine ⟨fun t ht n hn => ?_, h1, h2, h3⟩
    obtain ⟨k, -, x, hx, -⟩ := h4 t ht
    rw [hn] at hx
    simp only [TransactionNote.publicScalars, bind_ok_iff] at hx
    obtain ⟨pi, hpi, -⟩ := hx
    exact (TransferNote.checkInstance_ok.1 hpi).2.1
  · rintro ⟨h1, h2, h3, h4⟩
    refine validate_made complete batch ne made (fun t ht => ?_) h2 h3 h4
    cases hn : t.note with
    | transfer n => exact h1 t ht n hn
    | mint n => exact mints t ht n hn
    | freeze n => trivial

/-- **Alone or in a block of one.** -/
theorem C51_single (batch : SnarkBatch) {d : Fin 256} {s : LedgerState} {n : TransferNote} {time : U64} :
    validateSingleXfrNote d s n time = .ok () ↔ validateTxnsBatch d s [.transfer n] time = .ok () := by
  rw [C51_any batch (by simp)]
  simp only [List.mem_singleton, forall_eq, List.flatMap_cons, List.flatMap_nil, List.append_nil,
    validateSingleXfrNote, bind_ok_iff, ensure_ok_iff, decide_eq_true_eq]
  have key : ∀ k, keyForNote d (.transfer n) = .ok k ↔ ∃ x : TransferProvingKey × TransferVerifyingKey,
      unwrapRes (transferPreprocess n.inputs_nullifiers.length n.output_commitments.length d) = .ok x ∧
      k = .transfer x.2 := by
    intro k
    rw [keyForNote, bind_ok_iff]
    refine exists_congr (fun x => and_congr_right (fun _ => ?_))
    rw [Except.ok.injEq, eq_comm]
  have alone : ∀ k : TransferVerifyingKey, n.verify k n.aux_info.merkle_root time = .ok () ↔
      CheckedInBatch time (.transfer n) n.aux_info.merkle_root (.transfer k) := by
    intro k
    have := checked_alone (time := time) (t := .transfer n) (root := n.aux_info.merkle_root) (vk := .transfer k)
    simpa [VerifiesAlone, SameKind, Domestic] using this
  constructor
  · rintro ⟨k, hk, c, hc, _, hr, hv⟩
    obtain ⟨c1, c2, c3, c4⟩ := checkTxnInputNullifiers_ok hc
    exact ⟨hr, c2, c1, _, (key _).2 ⟨k, hk, rfl⟩, (alone _).1 hv⟩
  · rintro ⟨hr, c2, c1, k, hk, hv⟩
    obtain ⟨x, hx, rfl⟩ := (key _).1 hk
    obtain ⟨res, hres, -⟩ := checkTxnInputNullifiers_intro (checked := []) c1 c2 (by simp)
    exact ⟨x, hx, res, hres, (), hr, (alone _).2 hv⟩

/-- **Proposing.**  A proposer can build a block exactly when the fees of its notes fit in 128 bits. -/
theorem C51_propose_ok (ser : MockBlock → List Byte) (wallet : UserKeyPair) (blind : F) (txns : List TransactionNote) :
    (∃ x, collectFeeAndBuildBlock ser wallet blind txns = .ok x) ↔ (txns.map (fun t => t.fee.val)).sum < 2 ^ 128 := by
  unfold collectFeeAndBuildBlock
  constructor
  · rintro ⟨x, hx⟩
    rw [bind_ok_iff] at hx
    obtain ⟨fee, hf, -⟩ := hx
    rw [(calculateFee_ok _ _).1 hf]
    exact fee.isLt
  · intro h
    refine ⟨_, bind_ok_iff.2 ⟨⟨_, h⟩, (calculateFee_ok _ _).2 rfl, rfl⟩⟩

/-- **Proposed blocks.**  The block carries the given notes; validators that expect this proposer decide about it exactly
as about its notes, and validators that expect another one refuse it. -/
theorem C51_propose {ser : MockBlock → List Byte} {wallet : UserKeyPair} {blind : F} {txns : List TransactionNote}
    {ro : RecordOpening} {b : MockBlock} {sig : E.Sig}
    (built : collectFeeAndBuildBlock ser wallet blind txns = .ok (ro, b, sig)) :
    b.txns = txns ∧
    (∀ d s time, validateBlock ser d s b sig time wallet.pubKey = validateTxnsBatch d s txns time) ∧
    ∀ d s time who, who ≠ wallet.pubKey → validateBlock ser d s b sig time who = .error .invalidParameter := by
  unfold collectFeeAndBuildBlock at built
  rw [bind_ok_iff] at built
  obtain ⟨fee, -, h⟩ := built
  cases h
  refine ⟨rfl, fun d s time => ?_, fun d s time who hw => ?_⟩
  · have hsig : ∀ m, wallet.pubKey.verifySig m (wallet.sign m) = .ok () := by
      intro m
      unfold UserPubKey.verifySig
      exact if_pos (E.schnorr_correct _ _)
    unfold validateBlock ensure
    rw [if_pos (by simp), hsig]
    rfl
  · unfold validateBlock ensure
    rw [if_neg (by simpa [eq_comm] using hw)]
    rfl

/-- **What a validator checks about a block of anybody.** -/
theorem C51_block {ser : MockBlock → List Byte} {d : Fin 256} {s : LedgerState} {b : MockBlock} {sig : E.Sig} {time : U64}
    {who : UserPubKey} :
    validateBlock ser d s b sig time who = .ok () ↔
      b.proposer_pub_key = who ∧ who.verifySig (ser b) sig = .ok () ∧ validateTxnsBatch d s b.txns time = .ok () := by
  unfold validateBlock
  simp only [bind_ok_iff, ensure_ok_iff, decide_eq_true_eq]
  constructor
  · rintro ⟨_, h1, _, h2, h3⟩; exact ⟨h1, h2, h3⟩
  · rintro ⟨h1, h2, h3⟩; exact ⟨(), h1, (), h2, h3⟩

/-- **The proposer's record.**  Once a proposed block is inserted, the opening the proposer kept is the record behind the
outputs of the block: native, unfrozen, the proposer's, and worth the sum of the fees; its path from the new tree leads to
the newest root. -/
theorem C51_fee_record {ser : MockBlock → List Byte} {wallet : UserKeyPair} {blind : F} {txns : List TransactionNote}
    {ro : RecordOpening} {b : MockBlock} {sig : E.Sig} {d : ℕ} {s s' : LedgerState}
    (built : collectFeeAndBuildBlock ser wallet blind txns = .ok (ro, b, sig)) (inserted : s.insertBlock d b = .ok s') :
    s'.leaves[s.leaves.length + (txns.map TransactionNote.outputLen).sum]? = some ro.commitment ∧
    merkleRoot ((s.leaves.length + (txns.map TransactionNote.outputLen).sum : ℕ) : F) ro.commitment
      (treePath d s'.leaves (s.leaves.length + (txns.map TransactionNote.outputLen).sum)) ∈ s'.roots ∧
    ro.amount.val = (txns.map (fun t => t.fee.val)).sum ∧ ro.asset_def = AssetDefinition.native ∧
    ro.pub_key = wallet.pubKey ∧ ro.freeze_flag = .unfrozen := by
  unfold collectFeeAndBuildBlock at built
  rw [bind_ok_iff] at built
  obtain ⟨fee, hfee, h⟩ := built
  cases h
  obtain ⟨fee', hf', h1, h2, -, -, h3⟩ := LedgerState.insertBlock_ok inserted
  dsimp only at hf' h1
  obtain rfl : fee = fee' := by rw [hfee] at hf'; exact Except.ok.inj hf'
  have hlen : (txns.flatMap TransactionNote.outputCommitments).length = (txns.map TransactionNote.outputLen).sum := by
    rw [List.length_flatMap]
    congr 1
    refine List.map_congr_left (fun t _ => ?_)
    cases t <;> rfl
  have hget : s'.leaves[s.leaves.length + (txns.map TransactionNote.outputLen).sum]? =
      some (feeRecord wallet.pubKey fee blind).commitment := by
    rw [h1, ← hlen, List.getElem?_append_right (by simp), List.length_append, Nat.sub_self]
    rfl
  refine ⟨hget, ?_, ((calculateFee_ok _ _).1 hfee).symm, rfl, rfl, rfl⟩
  rw [h2]
  refine List.mem_cons.2 (Or.inl ?_)
  exact treePath_root h3 hget

end Cap

namespace Cap.Examples
open Toy Spec

-- the first block of the history of C44 meets the conditions, and so does its validation before and after insertion
example : validateTxnsBatch 2 led0 ([txn1].map (·.note)) 700 = .ok () := by
  exact valid1

example : (∀ t ∈ [txn1], Made 2 t) ∧ (∀ t ∈ [txn1], ∀ n, t.note = .mint n → n.mint_amount.val < 2 ^ 127) :=
  ⟨by intro t ht; obtain rfl := List.mem_singleton.1 ht; exact made1,
   by intro t ht n hn; obtain rfl := List.mem_singleton.1 ht; cases hn⟩

/-- after the time of the note, the block is refused -/
example : validateTxnsBatch 2 led0 ([txn1].map (·.note)) 801 ≠ .ok () := by
  intro h
  have := ((C51_made (ts := [txn1]) complete batch (by simp)
    (by intro t ht; obtain rfl := List.mem_singleton.1 ht; exact made1)
    (by intro t ht n hn; obtain rfl := List.mem_singleton.1 ht; cases hn)).1 h).1 txn1 List.mem_cons_self note1 rfl
  rw [(C17_generate keys1 complete note1_eq).1] at this
  revert this
  decide

/-- after its insertion, the block is refused -/
theorem led1_refuses : validateTxnsBatch 2 led1 ([txn1].map (·.note)) 700 ≠ .ok () := by
  intro h
  have h4 := ((C51_made (ts := [txn1]) complete batch (by simp)
    (by intro t ht; obtain rfl := List.mem_singleton.1 ht; exact made1)
    (by intro t ht n hn; obtain rfl := List.mem_singleton.1 ht; cases hn)).1 h).2.2.2 txn1 List.mem_cons_self
  obtain ⟨-, -, -, -, h5, -⟩ := LedgerState.insertBlock_ok led1_ok
  refine h4 (userNullifier feeRec ⟨treePath 2 tree1 0, treeRoot 2 tree1, 0⟩ alice) ?_ ((h5 _).2 (Or.inl ?_))
  · show _ ∈ note1.inputs_nullifiers
    rw [note1_nullifiers]
    exact List.mem_cons_self
  · refine List.mem_flatMap.2 ⟨_, List.mem_cons_self, ?_⟩
    show _ ∈ note1.inputs_nullifiers
    rw [note1_nullifiers]
    exact List.mem_cons_self

/-- Bob proposes it -/
example : ∃ ro b sig, collectFeeAndBuildBlock (fun _ => [1, 2, 3]) bob (47 : ZMod p) [txn1.note] = .ok (ro, b, sig) ∧
    (∃ s', led0.insertBlock 2 b = .ok s') := by
  have hf : calculateFee [txn1.note] = .ok 3 := by
    rw [calculateFee_ok]
    show [note1.aux_info.fee.val].sum = _
    rw [note1_fee]
    rfl
  refine ⟨feeRecord bob.pubKey 3 (47 : ZMod p), _, bob.sign [1, 2, 3], ?_, ⟨_, led1_ok⟩⟩
  rw [collectFeeAndBuildBlock, hf]
  rfl

end Cap.Examples
