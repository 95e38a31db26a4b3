/-
C60: a wallet's balance is what its records are worth, and the collected fee is where the block puts it.

status: partial
note: C60_funds: in every world (C59), the balance the wallet reports for an asset is the total of the records of that asset it holds, counted once each, and when the total does not fit in 128 bits the debug build panics while the release build reports it modulo 2^128. C60_fee: the fee record of a block is the leaf after all outputs of the block's transactions. C60_collected: it is the record the proposer keeps from building the block. The reference tests record it elsewhere, at offset + number of transactions - 1; C60_position_false: there, for every block of accepted notes, an output of one of the transactions is found instead, so that (C60_unspendable_partial) no membership witness looked up at that position proves the fee record, unless named hash inputs collide. Partial because the claim that the proposer's wallet knows where its fee is fails for the position used in the tests.
-/
import Verif.Props.C59
import Verif.Model.Validator

namespace Cap

open Spec

variable [E : CapEnv]

theorem sumU128_debug : ∀ (l : List Amount) (a : Amount), sumU128 .debug a l =
    if h : a.val + (l.map Fin.val).sum < 2 ^ 128 then .ok ⟨a.val + (l.map Fin.val).sum, h⟩ else .error .panic
  | [], a => by
    rw [sumU128, dif_pos (by simp)]
    congr 1
  | x :: l, a => by
    rw [sumU128, addU128]
    by_cases h : a.val + x.val < 2 ^ 128
    · rw [dif_pos h, res_ok_bind, sumU128_debug l]
      have : a.val + x.val + (l.map Fin.val).sum = a.val + ((x :: l).map Fin.val).sum := by
        rw [List.map_cons, List.sum_cons, Nat.add_assoc]
      simp only [this]
    · rw [dif_neg h, res_error_bind, dif_neg]
      rw [List.map_cons, List.sum_cons]
      omega

theorem sumU128_release : ∀ (l : List Amount) (a : Amount), ∃ r, sumU128 .release a l = .ok r ∧
    r.val = (a.val + (l.map Fin.val).sum) % 2 ^ 128
  | [], a => ⟨a, rfl, (Nat.mod_eq_of_lt a.isLt).symm⟩
  | x :: l, a => by
    obtain ⟨y, hy, hv⟩ : ∃ y, addU128 .release a x = .ok y ∧ y.val = (a.val + x.val) % 2 ^ 128 := by
      unfold addU128
      split
      · next h => exact ⟨_, rfl, (Nat.mod_eq_of_lt h).symm⟩
      · exact ⟨_, rfl, Fin.val_add a x⟩
    obtain ⟨r, h1, h2⟩ := sumU128_release l y
    refine ⟨r, bind_ok_iff.2 ⟨y, hy, h1⟩, ?_⟩
    rw [h2, hv, List.map_cons, List.sum_cons, Nat.mod_add_mod, Nat.add_assoc]

theorem mapGet_none {α β : Type} [DecidableEq α] {c : α} : ∀ {l : List (α × β)}, mapGet c l = none → ∀ e ∈ l, e.1 ≠ c
  | [], _ => fun _ h => (nomatch h)
  | (c', v) :: l, h => by
    unfold mapGet at h
    split at h
    · cases h
    · next hc =>
      intro e he
      rcases List.mem_cons.1 he with rfl | he
      · exact hc
      · exact mapGet_none h e he

/-- the records of a code -/
theorem Wallet.Ok.get {w : Wallet} (ok : w.Ok) (code : AssetCode) : ((mapGet code w.unspent).getD []).Nodup ∧
    ∀ x, x ∈ (mapGet code w.unspent).getD [] ↔ w.Holds x ∧ x.1.asset_def.code = code := by
  cases hg : mapGet code w.unspent with
  | none =>
    refine ⟨List.nodup_nil, fun x => ⟨fun h => (nomatch h), ?_⟩⟩
    rintro ⟨⟨e, he, hx⟩, hc⟩
    exact absurd ((ok.shelf.sorted e he x hx).symm.trans hc) (mapGet_none hg e he)
  | some l =>
    have hm := mapGet_mem hg
    refine ⟨ok.shelf.nodup _ hm, fun x => ⟨fun hx => ⟨⟨_, hm, hx⟩, ok.shelf.sorted _ hm x hx⟩, ?_⟩⟩
    rintro ⟨⟨e, he, hx⟩, hc⟩
    have h1 : e.1 = code := (ok.shelf.sorted e he x hx).symm.trans hc
    have h2 : e = (code, l) := List.inj_on_of_nodup_map ok.shelf.codes he hm h1
    rw [h2] at hx
    exact hx

variable [S : CapExt] {d : Fin 256} {b : Build} {k : UserKeyPair} {h : List Seen} {s s' : LedgerState} {w : Wallet}

/-- **The balance.**  `records` lists the held records of the asset, each once. -/
theorem C60_funds (world : World d b k h s w) (code : AssetCode) (records : List (RecordOpening × U64))
    (once : records.Nodup) (all : ∀ x, x ∈ records ↔ w.Holds x ∧ x.1.asset_def.code = code) :
    (∀ a, w.availableFunds .debug code = .ok a ↔ a.val = (records.map (fun x => x.1.amount.val)).sum) ∧
    (w.availableFunds .debug code = .error .panic ↔ 2 ^ 128 ≤ (records.map (fun x => x.1.amount.val)).sum) ∧
    ∃ a, w.availableFunds .release code = .ok a ∧ a.val = (records.map (fun x => x.1.amount.val)).sum % 2 ^ 128 := by
  obtain ⟨h1, h2⟩ := (worldOk world).ok.get code
  have hp : ((mapGet code w.unspent).getD []).Perm records :=
    (List.perm_ext_iff_of_nodup h1 once).2 (fun x => (h2 x).trans (all x).symm)
  have hsum : ((((mapGet code w.unspent).getD []).map (fun x => x.1.amount)).map Fin.val).sum =
      (records.map (fun x => x.1.amount.val)).sum := by
    rw [List.map_map]
    exact (hp.map _).sum_eq
  have hf : ∀ b, w.availableFunds b code = sumU128 b 0 (((mapGet code w.unspent).getD []).map (fun x => x.1.amount)) := by
    intro b
    unfold Wallet.availableFunds
    cases mapGet code w.unspent <;> rfl
  have hz : (0 : Amount).val = 0 := rfl
  refine ⟨fun a => ?_, ?_, ?_⟩
  · rw [hf, sumU128_debug, hz]
    simp only [Nat.zero_add, hsum]
    split
    · next hl =>
      rw [Except.ok.injEq]
      exact ⟨fun h => by rw [← h], fun h => Fin.ext h.symm⟩
    · next hl => exact ⟨fun h => (nomatch h), fun h => absurd (h ▸ a.isLt) hl⟩
  · rw [hf, sumU128_debug, hz]
    simp only [Nat.zero_add, hsum]
    split
    · next hl => exact ⟨fun h => (nomatch h), fun h => absurd hl (not_lt.2 h)⟩
    · next hl => exact ⟨fun _ => not_lt.1 hl, fun _ => rfl⟩
  · obtain ⟨r, g1, g2⟩ := sumU128_release (((mapGet code w.unspent).getD []).map (fun x => x.1.amount)) 0
    rw [hsum, hz, Nat.zero_add] at g2
    exact ⟨r, by rw [hf]; exact g1, g2⟩

/-- the number of outputs of a block -/
def blockOutputs (blk : MockBlock) : ℕ := (blk.txns.map (fun t => t.outputCommitments.length)).sum

/-- **The collected fee** is the leaf after all outputs of the block. -/
theorem C60_fee {blk : MockBlock} (inserted : s.insertBlock d.val blk = .ok s') :
    ∃ fee, calculateFee blk.txns = .ok fee ∧ s'.leaves[s.leaves.length + blockOutputs blk]? =
      some (feeRecord blk.proposer_pub_key fee blk.fee_blind).commitment := by
  obtain ⟨fee, h1, h2, -⟩ := LedgerState.insertBlock_ok inserted
  refine ⟨fee, h1, ?_⟩
  have hl : (blk.txns.flatMap TransactionNote.outputCommitments).length = blockOutputs blk := List.length_flatMap
  rw [h2, List.getElem?_append_right (by rw [List.length_append, hl]), List.length_append, hl, Nat.sub_self]
  rfl

/-- **The record the proposer keeps** when it builds the block is the one at that leaf. -/
theorem C60_collected {ser : MockBlock → List Byte} {wallet : UserKeyPair} {blind : F} {txns : List TransactionNote}
    {ro : RecordOpening} {blk : MockBlock} {sig : E.Sig}
    (built : collectFeeAndBuildBlock ser wallet blind txns = .ok (ro, blk, sig)) (inserted : s.insertBlock d.val blk = .ok s') :
    blk.txns = txns ∧ s'.leaves[s.leaves.length + blockOutputs blk]? = some ro.commitment := by
  obtain ⟨fee, h1, h2⟩ := C60_fee inserted
  unfold collectFeeAndBuildBlock at built
  rw [bind_ok_iff] at built
  obtain ⟨fee', h3, h4⟩ := built
  cases h4
  obtain rfl : fee' = fee := Except.ok.inj (h3.symm.trans h1)
  exact ⟨rfl, h2⟩

/-- an accepted note has an output -/
theorem accepted_outputs (sound : SnarkSound) (batch : SnarkBatch) {txns : List TransactionNote} {time : U64}
    (valid : validateTxnsBatch d s txns time = .ok ()) : ∀ t ∈ txns, t.outputCommitments ≠ [] := by
  intro t ht
  obtain ⟨os, h1, h2⟩ := block_opened sound batch valid
  rw [← h1] at ht
  obtain ⟨o, ho, rfl⟩ := List.mem_map.1 ht
  rw [(h2 o ho).commitments]
  have so := h2 o ho
  cases o with
  | transfer n w =>
    obtain ⟨i0, is, o0, os, nl, nls, c, cs, P⟩ := OpensTransfer.sat so |>.parts so.shape
    rw [show Opening.creates (.transfer n w) = w.outputs from rfl, P.outputs]
    simp
  | mint n w => simp [Opening.creates]
  | freeze n w => simp [Opening.creates]

/-- **The position used by the reference tests is wrong for every block**: an output of a transaction is there. -/
theorem C60_position_false (sound : SnarkSound) (batch : SnarkBatch) {blk : MockBlock} {time : U64}
    (valid : validateTxnsBatch d s blk.txns time = .ok ()) (nonempty : blk.txns ≠ [])
    (inserted : s.insertBlock d.val blk = .ok s') :
    s.leaves.length + blk.txns.length - 1 < s.leaves.length + blockOutputs blk ∧
      ∃ t ∈ blk.txns, ∃ rc ∈ t.outputCommitments, s'.leaves[s.leaves.length + blk.txns.length - 1]? = some rc := by
  obtain ⟨fee, h1, h2, -⟩ := LedgerState.insertBlock_ok inserted
  have hl : (blk.txns.flatMap TransactionNote.outputCommitments).length = blockOutputs blk := List.length_flatMap
  have ho := accepted_outputs sound batch valid
  have hle : blk.txns.length ≤ blockOutputs blk := by
    unfold blockOutputs
    clear h1 h2 hl inserted valid nonempty
    generalize blk.txns = l at ho
    induction l with
    | nil => simp
    | cons t l ih =>
      have := List.length_pos_iff.2 (ho t List.mem_cons_self)
      have := ih (fun t' h' => ho t' (List.mem_cons_of_mem _ h'))
      simp only [List.length_cons, List.map_cons, List.sum_cons]
      omega
  have hpos := List.length_pos_iff.2 nonempty
  refine ⟨by omega, ?_⟩
  have hlt : blk.txns.length - 1 < (blk.txns.flatMap TransactionNote.outputCommitments).length := by omega
  have hm := List.getElem_mem hlt
  obtain ⟨t, ht, hrc⟩ := List.mem_flatMap.1 hm
  refine ⟨t, ht, _, hrc, ?_⟩
  rw [h2, List.append_assoc, List.getElem?_append_right (by omega), List.getElem?_append_left (by omega)]
  rw [show s.leaves.length + blk.txns.length - 1 - s.leaves.length = blk.txns.length - 1 by omega]
  exact List.getElem?_eq_getElem hlt

/-- two leaves with the same path and root -/
theorem fold_collides : ∀ {path : List PathNode} {x y : F}, path.foldl PathNode.step x = path.foldl PathNode.step y →
    x = y ∨ ∃ a b, a ∈ pathCalls x path ∧ b ∈ pathCalls y path ∧
      Collides (fun c : F × F × F => E.nodeHash c.1 c.2.1 c.2.2) a b
  | [], x, y, h => .inl h
  | n :: path, x, y, h => by
    rcases fold_collides (path := path) h with h1 | ⟨a, b, h1, h2, h3⟩
    · by_cases hxy : x = y
      · exact .inl hxy
      · refine .inr ⟨stepCall x n, stepCall y n, List.mem_cons_self, List.mem_cons_self, fun h2 => hxy ?_, ?_⟩
        · unfold stepCall at h2
          cases hp : n.pos <;> rw [hp] at h2 <;> simp only [Prod.mk.injEq] at h2 <;> simp_all
        · unfold PathNode.step at h1
          unfold stepCall
          cases hp : n.pos <;> rw [hp] at h1 <;> exact h1
    · exact .inr ⟨a, b, List.mem_cons_of_mem _ h1, List.mem_cons_of_mem _ h2, h3⟩

/-- **Recorded at the position of another leaf, a record cannot be spent**: the library refuses the membership witness that
is looked up there, unless named hash inputs collide. -/
theorem C60_unspendable_partial (world : World d b k h s w) (ro : RecordOpening) (uid : U64) {rc : F}
    (there : s.leaves[uid.val]? = some rc) (other : ro.commitment ≠ rc) {acc : AccMemberWitness}
    (looked_up : Wallet.lookupFromTree d.val s uid = .ok acc) :
    merkleCheck acc ro.commitment = false ∨
      Collides (fun c : F × F => E.leafHash c.1 c.2) (acc.uid.val, ro.commitment) (acc.uid.val, rc) ∨
      ∃ x y, x ∈ pathCalls (E.leafHash acc.uid.val ro.commitment) acc.path ∧
        y ∈ pathCalls (E.leafHash acc.uid.val rc) acc.path ∧
        Collides (fun c : F × F × F => E.nodeHash c.1 c.2.1 c.2.2) x y := by
  unfold Wallet.lookupFromTree at looked_up
  split at looked_up
  · cases looked_up
    by_cases hm : merkleCheck ⟨treePath d.val s.leaves uid.val, treeRoot d.val s.leaves, uid⟩ ro.commitment = true
    · right
      have h1 : merkleRoot (uid.val : F) ro.commitment (treePath d.val s.leaves uid.val) = treeRoot d.val s.leaves := by
        simpa [merkleCheck] using hm
      have h2 := treePath_root (worldOk world).room there
      rcases fold_collides (h1.trans h2.symm) with h3 | h3
      · exact .inl ⟨fun h4 => other (Prod.mk.inj h4).2, h3⟩
      · exact .inr h3
    · exact .inl (by simpa using hm)
  · cases looked_up

end Cap

namespace Cap.Examples
open Toy Spec

/-- After the payment (C59) Alice holds 37 native units. -/
example : ∃ w, World 2 .debug alice (seen0 ++ seenA0 ++ [seenBlock]) led1 w ∧
    ∃ records : List (RecordOpening × U64), records.Nodup ∧
      (∀ x, x ∈ records ↔ w.Holds x ∧ x.1.asset_def.code = nativeCode) ∧
      w.availableFunds .debug nativeCode = .ok 37 := by
  obtain ⟨w, hw, -, h1, -, h3⟩ := alice_wallet
  have hall : ∀ x, x ∈ [(chg1, (2 : U64))] ↔ w.Holds x ∧ x.1.asset_def.code = nativeCode := by
    intro x
    rw [List.mem_singleton]
    constructor
    · rintro rfl
      exact ⟨h1, by decide +kernel⟩
    · rintro ⟨hx, hc⟩
      have := alice_received (C59_sound hw x hx).1
      simp only [List.mem_cons, List.not_mem_nil, or_false] at this
      rcases this with rfl | rfl | rfl
      · exact absurd hx h3
      · exact absurd hc (by decide +kernel)
      · rfl
  exact ⟨w, hw, [(chg1, 2)], by simp, hall, ((C60_funds hw nativeCode [(chg1, 2)] (by simp) hall).1 37).2 (by decide +kernel)⟩

/-- The fee of that block is at position 4; the reference tests would record it at position 2, where Alice's change is. -/
example : SnarkSound ∧ SnarkBatch ∧ validateTxnsBatch 2 led0 [txn1.note] 700 = .ok () ∧
    led0.insertBlock 2 ⟨[txn1.note], (47 : ZMod p), bob.pubKey⟩ = .ok led1 ∧
    led1.leaves[4]? = some (feeRecord bob.pubKey 3 (47 : ZMod p)).commitment ∧
    led1.leaves[2 + 1 - 1]? = some chg1.commitment ∧
    (feeRecord bob.pubKey 3 (47 : ZMod p)).commitment ≠ chg1.commitment ∧
    (Wallet.lookupFromTree 2 led1 2 matches .ok _) = true :=
  ⟨Toy.sound, Toy.batch, valid1, led1_ok, rfl, rfl, by decide +kernel, rfl⟩

/-- Bob builds that block and keeps the record of the fee, which is then at position 4. -/
example : ∃ ro blk sig, collectFeeAndBuildBlock (fun _ => [1, 2, 3]) bob (47 : ZMod p) [txn1.note] = .ok (ro, blk, sig) ∧
    led0.insertBlock 2 blk = .ok led1 ∧ led1.leaves[4]? = some ro.commitment := by
  have hf : calculateFee [txn1.note] = .ok 3 := by
    rw [calculateFee_ok]
    show [note1.aux_info.fee.val].sum = _
    rw [note1_fee]
    rfl
  refine ⟨feeRecord bob.pubKey 3 (47 : ZMod p), _, bob.sign [1, 2, 3], ?_, led1_ok, rfl⟩
  rw [collectFeeAndBuildBlock, hf]
  rfl

end Cap.Examples
