/-
C52: inserting a block is all or nothing.

status: partial
note: C52_partial: in a ledger within its tree, insert_block succeeds exactly when the tree has room for the outputs and the fee record and the fees fit in 128 bits, and then the ledger has exactly the outputs and the fee record behind its leaves, the new root, and the nullifiers of the notes. FALSE when it fails: C52_false: for every instantiation and every block of fresh made notes whose fees exceed 128 bits, the validator accepts the block, insert_block returns an error, and yet the outputs are in the tree and the nullifiers stored: no note of the block is ever accepted again, no root is stored, and nobody gets the fees. C52_full_false: the same with a tree that runs full in the middle of a block (a panic).
-/
import Verif.Props.C51

namespace Cap

open Spec

variable [E : CapEnv] [S : CapExt]

/-- **What holds.**  When insertion succeeds, and what the ledger then is. -/
theorem C52_partial {d : ℕ} {b : MockBlock} {s : LedgerState} (within : Room d s 0) :
    ((insertBlockInPlace d b s).2 = .ok () ↔
      Room d s ((b.txns.map TransactionNote.outputLen).sum + 1) ∧ (b.txns.map (fun t => t.fee.val)).sum < 2 ^ 128) ∧
    ((insertBlockInPlace d b s).2 = .ok () → ∃ fee : Amount, fee.val = (b.txns.map (fun t => t.fee.val)).sum ∧
      (insertBlockInPlace d b s).1.leaves = s.leaves ++ b.txns.flatMap TransactionNote.outputCommitments ++
        [(feeRecord b.proposer_pub_key fee b.fee_blind).commitment] ∧
      (insertBlockInPlace d b s).1.roots = treeRoot d (insertBlockInPlace d b s).1.leaves :: s.roots ∧
      ∀ x, x ∈ (insertBlockInPlace d b s).1.nullifiers ↔ (∃ t ∈ b.txns, x ∈ t.nullifiers) ∨ x ∈ s.nullifiers) := by
  have hlen : (b.txns.flatMap TransactionNote.outputCommitments).length = (b.txns.map TransactionNote.outputLen).sum := by
    rw [List.length_flatMap]
    congr 1
    refine List.map_congr_left (fun t _ => ?_)
    cases t <;> rfl
  rw [← hlen]
  by_cases room : Room d s ((b.txns.flatMap TransactionNote.outputCommitments).length + 1)
  · by_cases fits : (b.txns.map (fun t => t.fee.val)).sum < 2 ^ 128
    · have hf : calculateFee b.txns = .ok ⟨_, fits⟩ := (calculateFee_ok _ _).2 rfl
      rw [insertBlockInPlace_ok room hf]
      obtain ⟨h1, h2, h3⟩ := noted_eq b.txns s
      refine ⟨⟨fun _ => ⟨room, fits⟩, fun _ => rfl⟩, fun _ => ⟨⟨_, fits⟩, rfl, ?_, ?_, fun x => ?_⟩⟩
      · simp only [LedgerState.storeRoot, h1]
      · simp only [LedgerState.storeRoot, h2]
      · simp only [LedgerState.storeRoot, h3, List.mem_flatMap]
    · have hf : calculateFee b.txns = .error .incorrectFee := (calculateFee_overflow _).2 (by omega)
      rw [insertBlockInPlace_fee (by unfold Room at room ⊢; omega) hf]
      refine ⟨⟨fun h => by simp at h, fun h => absurd h.2 fits⟩, fun h => by simp at h⟩
  · have := insertBlockInPlace_full (b := b) within room
    exact ⟨⟨fun h => absurd h this, fun h => absurd h.1 room⟩, fun h => absurd h this⟩

/-- **The model used for histories is this one.**  `insert_block` as a function that drops the ledger of a failed
insertion (C44, C51) succeeds exactly when the insertion in place does, with the same ledger. -/
theorem C52_same {d : ℕ} {b : MockBlock} {s s' : LedgerState} :
    s.insertBlock d b = .ok s' ↔ insertBlockInPlace d b s = (s', .ok ()) := agrees_block d b s s'

/-- **Negation (1): fees that do not fit.**  A block of fresh notes made by the library with fees of 2^128 or more in all
is accepted by the validator, and its insertion fails; but afterwards the outputs are in the tree, the root of that tree
is not stored, and no block that contains one of the notes will be accepted any more, at no time. -/
theorem C52_false (complete : SnarkComplete) (batch : SnarkBatch) {d : Fin 256} {s : LedgerState} {ts : List Txn}
    {time : U64} (ne : ts ≠ []) (made : ∀ t ∈ ts, Made d t) (timely : ∀ t ∈ ts, Timely time t.note)
    (roots : ∀ t ∈ ts, t.note.merkleRoot ∈ s.roots)
    (distinct : (ts.flatMap (fun t => t.note.nullifiers)).Nodup)
    (fresh : ∀ t ∈ ts, ∀ x ∈ t.note.nullifiers, x ∉ s.nullifiers)
    (room : Room d.val s (ts.map (fun t => t.note.outputLen)).sum)
    (too_much : 2 ^ 128 ≤ (ts.map (fun t => t.note.fee.val)).sum) (blind : F) (who : UserPubKey) :
    validateTxnsBatch d s (ts.map (·.note)) time = .ok () ∧
    ∃ s', insertBlockInPlace d.val ⟨ts.map (·.note), blind, who⟩ s = (s', .error .incorrectFee) ∧
      s'.leaves = s.leaves ++ ts.flatMap (fun t => t.creates.map RecordOpening.commitment) ∧
      s'.roots = s.roots ∧
      ∀ t ∈ ts, ∀ txns time', t.note ∈ txns → validateTxnsBatch d s' txns time' ≠ .ok () := by
  refine ⟨validate_made complete batch ne made timely roots distinct fresh, ?_⟩
  have hlen : ((ts.map (·.note)).flatMap TransactionNote.outputCommitments).length =
      (ts.map (fun t => t.note.outputLen)).sum := by
    rw [List.flatMap_map, List.length_flatMap]
    congr 1
    refine List.map_congr_left (fun t _ => ?_)
    cases t.note <;> rfl
  have hf : calculateFee (ts.map (·.note)) = .error .incorrectFee := by
    rw [calculateFee_overflow, List.map_map]
    exact too_much
  obtain ⟨h1, h2, h3⟩ := noted_eq (ts.map (·.note)) s
  refine ⟨_, insertBlockInPlace_fee (by dsimp only; rw [hlen]; exact room) hf, ?_, h2, ?_⟩
  · rw [h1, List.flatMap_map]
    congr 1
    clear ne timely roots distinct fresh room too_much hlen hf h1 h2 h3
    induction ts with
    | nil => rfl
    | cons t ts ih =>
      rw [List.flatMap_cons, List.flatMap_cons, (made t List.mem_cons_self).commitments,
        ih (fun t' h' => made t' (List.mem_cons_of_mem _ h'))]
  · intro t ht txns time' hin hok
    obtain ⟨-, -, h6, -⟩ := validateTxnsBatch_ok hok
    have hne : t.note.nullifiers ≠ [] := by
      have hm := made t ht
      cases hm with
      | transfer keys gen =>
        show TransferNote.inputs_nullifiers _ ≠ []
        rw [transfer_nullifiers gen]
        simpa using (C40_generate gen).1
      | mint keys gen => exact List.cons_ne_nil _ _
      | freeze keys gen =>
        show FreezeNote.input_nullifiers _ ≠ []
        rw [freeze_nullifiers gen]
        exact List.cons_ne_nil _ _
    obtain ⟨x, hx⟩ := List.exists_mem_of_ne_nil _ hne
    refine h6 x (List.mem_flatMap.2 ⟨_, hin, hx⟩) ((h3 x).2 (Or.inl ?_))
    exact List.mem_flatMap.2 ⟨_, List.mem_map.2 ⟨t, ht, rfl⟩, hx⟩

/-- **Negation (2): a tree that runs full.**  If the tree has room for the first part of a block but not for the next
note, the insertion panics, and the nullifiers of the first part stay stored. -/
theorem C52_full_false {d : ℕ} {s : LedgerState} {pre : List TransactionNote} {t : TransactionNote} (post : List TransactionNote)
    (room : Room d s (pre.map TransactionNote.outputLen).sum)
    (full : ¬ Room d s ((pre.map TransactionNote.outputLen).sum + t.outputLen)) (blind : F) (who : UserPubKey) :
    ∃ s', insertBlockInPlace d ⟨pre ++ t :: post, blind, who⟩ s = (s', .error .panic) ∧
      ∀ u ∈ pre, ∀ x ∈ u.nullifiers, x ∈ s'.nullifiers := by
  have hlen : (pre.flatMap TransactionNote.outputCommitments).length = (pre.map TransactionNote.outputLen).sum := by
    rw [List.length_flatMap]
    congr 1
    refine List.map_congr_left (fun t _ => ?_)
    cases t <;> rfl
  have hlen' : t.outputCommitments.length = t.outputLen := by cases t <;> rfl
  obtain ⟨h1, -, h3⟩ := noted_eq pre s
  have happ : ∀ (l m : List TransactionNote) (s : LedgerState),
      pushNotes d (l ++ m) s = ((pushNotes d l).andThen (pushNotes d m)) s := by
    intro l m
    induction l with
    | nil => intro s; rfl
    | cons a l ih =>
      intro s
      rw [List.cons_append, pushNotes, pushNotes, Update.andThen, Update.andThen, Update.andThen]
      generalize pushNote d a s = r
      obtain ⟨s1, r⟩ := r
      cases r with
      | error e => rfl
      | ok u =>
        dsimp only
        rw [ih, Update.andThen]
  have hfull : ¬ Room d (noted s pre) t.outputCommitments.length := by
    unfold Room at full ⊢
    rw [h1, List.length_append, hlen, hlen']
    omega
  have hpre : Room d (noted s pre) 0 := by
    unfold Room at room ⊢
    rw [h1, List.length_append, hlen]
    exact room
  have hp := pushNote_full hpre hfull
  have hkeep : (pushNote d t (noted s pre)).1.nullifiers = (noted s pre).nullifiers := by
    exact pushNote_keeps hp
  refine ⟨(pushNote d t (noted s pre)).1, ?_, ?_⟩
  · rw [insertBlockInPlace, Update.andThen]
    dsimp only
    rw [happ, Update.andThen, pushNotes_ok (by rw [hlen]; exact room)]
    dsimp only
    rw [pushNotes, Update.andThen]
    generalize pushNote d t (noted s pre) = r at hp
    obtain ⟨s1, r⟩ := r
    cases hp
    rfl
  · intro u hu x hx
    rw [hkeep]
    exact (h3 x).2 (Or.inl (List.mem_flatMap.2 ⟨u, hu, hx⟩))

end Cap

namespace Cap.Examples
open Toy Spec

/-! Two rich minters pay 2^128 in fees. -/

/-- the first fee record -/
def rich1 : RecordOpening := ⟨Fin.last _, AssetDefinition.native, alice.pubKey, .unfrozen, 71⟩
/-- the second fee record -/
def rich2 : RecordOpening := ⟨1, AssetDefinition.native, bob.pubKey, .unfrozen, 72⟩
/-- the leaves before the block -/
def richTree : List (ZMod p) := [rich1.commitment, rich2.commitment]
/-- the first fee -/
def richFee1 : TxnFeeInfo :=
  ⟨⟨rich1, ⟨treePath 2 richTree 0, treeRoot 2 richTree, 0⟩, alice⟩, Fin.last _,
    ⟨0, AssetDefinition.native, alice.pubKey, .unfrozen, 73⟩⟩
/-- the second fee -/
def richFee2 : TxnFeeInfo :=
  ⟨⟨rich2, ⟨treePath 2 richTree 1, treeRoot 2 richTree, 1⟩, bob⟩, 1,
    ⟨0, AssetDefinition.native, bob.pubKey, .unfrozen, 74⟩⟩

theorem rich1_ok : isOk (MintNote.generate rng mintRec seed desc richFee1 pk2) = true := by decide +kernel
theorem rich2_ok : isOk (MintNote.generate rng mintRec seed desc richFee2 pk2) = true := by decide +kernel

/-- the first mint -/
noncomputable def richNote1 : MintNote := (okVal (MintNote.generate rng mintRec seed desc richFee1 pk2) rich1_ok).1
/-- the second mint -/
noncomputable def richNote2 : MintNote := (okVal (MintNote.generate rng mintRec seed desc richFee2 pk2) rich2_ok).1

theorem rich1_eq : ∃ sk, MintNote.generate rng mintRec seed desc richFee1 pk2 = .ok (richNote1, sk) :=
  ⟨_, okVal_eq2 _ rich1_ok⟩
theorem rich2_eq : ∃ sk, MintNote.generate rng mintRec seed desc richFee2 pk2 = .ok (richNote2, sk) :=
  ⟨_, okVal_eq2 _ rich2_ok⟩

theorem rich_nullifiers : richNote1.input_nullifier ≠ richNote2.input_nullifier := by decide +kernel

attribute [irreducible] richNote1 richNote2

/-- the first mint, with its records -/
noncomputable def richTxn1 : Txn := ⟨.mint richNote1, [(rich1, richFee1.fee_input.acc)], [richFee1.fee_chg_ro, mintRec]⟩
/-- the second mint, with its records -/
noncomputable def richTxn2 : Txn := ⟨.mint richNote2, [(rich2, richFee2.fee_input.acc)], [richFee2.fee_chg_ro, mintRec]⟩

/-- the ledger before the block -/
def richLedger : LedgerState := ⟨richTree, [], [treeRoot 2 richTree]⟩

/-- all hypotheses of the negation hold -/
example : ([richTxn1, richTxn2] ≠ []) ∧ (∀ t ∈ [richTxn1, richTxn2], Made 2 t) ∧
    (∀ t ∈ [richTxn1, richTxn2], Timely 5 t.note) ∧
    (∀ t ∈ [richTxn1, richTxn2], t.note.merkleRoot ∈ richLedger.roots) ∧
    ([richTxn1, richTxn2].flatMap (fun t => t.note.nullifiers)).Nodup ∧
    (∀ t ∈ [richTxn1, richTxn2], ∀ x ∈ t.note.nullifiers, x ∉ richLedger.nullifiers) ∧
    Room 2 richLedger ([richTxn1, richTxn2].map (fun t => t.note.outputLen)).sum ∧
    2 ^ 128 ≤ ([richTxn1, richTxn2].map (fun t => t.note.fee.val)).sum := by
  obtain ⟨sk1, e1⟩ := rich1_eq
  obtain ⟨sk2, e2⟩ := rich2_eq
  obtain ⟨a1, -, -, -, a5, a6, -⟩ := C18_fields e1
  obtain ⟨b1, -, -, -, b5, b6, -⟩ := C18_fields e2
  refine ⟨by simp, ?_, ?_, ?_, ?_, ?_, ?_, ?_⟩
  · intro t ht
    rcases List.mem_cons.1 ht with rfl | ht
    · exact .mint keys2 e1
    · obtain rfl := List.mem_singleton.1 ht
      exact .mint keys2 e2
  · intro t ht
    rcases List.mem_cons.1 ht with rfl | ht
    · show richNote1.mint_amount.val < _
      rw [a1]; decide +kernel
    · obtain rfl := List.mem_singleton.1 ht
      show richNote2.mint_amount.val < _
      rw [b1]; decide +kernel
  · intro t ht
    rcases List.mem_cons.1 ht with rfl | ht
    · show richNote1.aux_info.merkle_root ∈ _
      rw [a6]; exact List.mem_cons_self
    · obtain rfl := List.mem_singleton.1 ht
      show richNote2.aux_info.merkle_root ∈ _
      rw [b6]; exact List.mem_cons_self
  · show [richNote1.input_nullifier, richNote2.input_nullifier].Nodup
    simp [rich_nullifiers]
  · intro t _ x _
    simp [richLedger]
  · show Room 2 richLedger 4
    unfold Room richLedger richTree
    simp only [List.length_cons, List.length_nil]
    omega
  · show 2 ^ 128 ≤ richNote1.aux_info.fee.val + (richNote2.aux_info.fee.val + 0)
    rw [a5, b5]
    decide +kernel

end Cap.Examples

namespace Cap.Examples
open Toy Spec

/-- a small tree that runs full in the second of two mint notes; a ledger within its tree -/
example : Room 1 (LedgerState.new 1) ([TransactionNote.mint richNote1].map TransactionNote.outputLen).sum ∧
    ¬ Room 1 (LedgerState.new 1) (([TransactionNote.mint richNote1].map TransactionNote.outputLen).sum +
      (TransactionNote.mint richNote2).outputLen) ∧ Room 1 (LedgerState.new 1) 0 := by
  refine ⟨?_, ?_, ?_⟩
  · show Room 1 (LedgerState.new 1) 2
    simp [Room, LedgerState.new, LedgerState.storeRoot]
  · show ¬ Room 1 (LedgerState.new 1) 4
    simp [Room, LedgerState.new, LedgerState.storeRoot]
  · simp [Room, LedgerState.new, LedgerState.storeRoot]

end Cap.Examples
