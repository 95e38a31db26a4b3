/-
C20: verification depends on time only through expiry.

status: proved
note: For every note, key, root and time and for every proof system; mint and freeze verification take no time at all, and in a batch the time does not matter for them either.
-/
import Verif.Lemmas.Verify
import Verif.Props.C17
import Verif.Props.C18
import Verif.Props.C19

namespace Cap

variable [E : CapEnv] [S : CapExt]

/-- A transfer accepted at some time is accepted at every earlier time. -/
theorem C20_earlier (n : TransferNote) (vk : TransferVerifyingKey) (root : F) (t t' : U64) (hle : t' ≤ t)
    (h : n.verify vk root t = .ok ()) : n.verify vk root t' = .ok () := by
  rw [TransferNote.verify_ok] at h ⊢
  exact ⟨h.1, le_trans hle h.2.1, h.2.2⟩

/-- The time matters through the comparison with `valid_until` only: a note accepted at any one time is
accepted at every time up to and including `valid_until`. -/
theorem C20_until_expiry (n : TransferNote) (vk : TransferVerifyingKey) (root : F) (t t' : U64)
    (h : n.verify vk root t = .ok ()) :
    n.verify vk root t' = .ok () ↔ t' ≤ n.aux_info.valid_until := by
  rw [TransferNote.verify_ok] at h ⊢
  exact ⟨fun h' => h'.2.1, fun h' => ⟨h.1, h', h.2.2⟩⟩

/-- After `valid_until` every transfer note is rejected. -/
theorem C20_expired (n : TransferNote) (vk : TransferVerifyingKey) (root : F) (t : U64)
    (h : n.aux_info.valid_until < t) : n.verify vk root t = .error .failedTransactionVerification := by
  unfold TransferNote.verify TransferNote.checkInstance
  by_cases hr : root ≠ n.aux_info.merkle_root
  · rw [if_pos hr]; rfl
  · rw [if_neg hr, if_pos h]; rfl

/-- A note is rejected for every Merkle root other than its own, whatever the key and the time. -/
theorem C20_wrong_root (root : F) :
    (∀ (n : TransferNote) vk t, root ≠ n.aux_info.merkle_root →
      n.verify vk root t = .error .failedTransactionVerification) ∧
    (∀ (n : MintNote) vk, root ≠ n.aux_info.merkle_root →
      n.verify vk root = .error .failedTransactionVerification) ∧
    (∀ (n : FreezeNote) vk, root ≠ n.aux_info.merkle_root →
      n.verify vk root = .error .failedTransactionVerification) := by
  refine ⟨fun n vk t h => ?_, fun n vk h => ?_, fun n vk h => ?_⟩
  · unfold TransferNote.verify TransferNote.checkInstance; rw [if_pos h]; rfl
  · unfold MintNote.verify MintNote.checkInstance; rw [if_pos h]; rfl
  · unfold FreezeNote.verify FreezeNote.checkInstance; rw [if_pos h]; rfl

/-- Mint and freeze notes do not expire: a batch of them has the same verdict at all times. -/
theorem C20_mint_freeze (txns : List TransactionNote) (roots : List F) (keys : List TransactionVerifyingKey)
    (t t' : U64) (h : ∀ x ∈ txns, ∀ n, x ≠ .transfer n) :
    txnBatchVerify txns roots t keys = txnBatchVerify txns roots t' keys := by
  have hp : ∀ (l : List TransactionNote) (rs : List F), (∀ x ∈ l, ∀ n, x ≠ .transfer n) →
      batchPublicInputs t l rs = batchPublicInputs t' l rs := by
    intro l
    induction l with
    | nil => intro rs _; rfl
    | cons x xs ih =>
      intro rs hl
      cases rs with
      | nil => rfl
      | cons r rs =>
        have hx : x.publicScalars r t = x.publicScalars r t' := by
          cases x with
          | transfer n => exact absurd rfl (hl _ (by simp) n)
          | mint n => rfl
          | freeze n => rfl
        simp only [batchPublicInputs, hx, ih rs (fun y hy => hl y (by simp [hy]))]
  unfold txnBatchVerify
  rw [hp txns roots h]

/-- In a batch, too, time matters only through expiry: a batch accepted at `t` is accepted at every earlier
time, and one with an expired transfer is rejected. -/
theorem C20_batch_earlier (txns : List TransactionNote) (roots : List F) (keys : List TransactionVerifyingKey)
    (t t' : U64) (hle : t' ≤ t) (h : txnBatchVerify txns roots t keys = .ok ()) :
    txnBatchVerify txns roots t' keys = .ok () := by
  have hp : ∀ (l : List TransactionNote) (rs : List F) xs,
      batchPublicInputs t l rs = .ok xs → batchPublicInputs t' l rs = .ok xs := by
    intro l
    induction l with
    | nil => intro rs xs h; exact h
    | cons x l ih =>
      intro rs xs h
      cases rs with
      | nil => exact h
      | cons r rs =>
        simp only [batchPublicInputs, bind_ok_iff] at h ⊢
        obtain ⟨a, ha, b, hb, hab⟩ := h
        refine ⟨a, ?_, b, ih rs b hb, hab⟩
        cases x with
        | transfer n =>
          simp only [TransactionNote.publicScalars, bind_ok_iff, TransferNote.checkInstance_ok] at ha ⊢
          obtain ⟨pi, ⟨h1, h2, h3⟩, h4⟩ := ha
          exact ⟨pi, ⟨h1, le_trans hle h2, h3⟩, h4⟩
        | mint n => exact ha
        | freeze n => exact ha
  unfold txnBatchVerify at h ⊢
  split at h
  · cases h
  · rename_i hl
    rw [if_neg hl]
    rw [bind_ok_iff] at h ⊢
    obtain ⟨xs, h1, h2⟩ := h
    exact ⟨xs, hp _ _ _ h1, h2⟩

end Cap

namespace Cap.Examples
open Toy

/-- a note accepted at time 900, so at 5 as well, and expired at 901; a root that is not its own -/
example : xfrNote.verify xfrVk xfrNote.aux_info.merkle_root 900 = .ok () ∧ (5 : U64) ≤ 900 ∧
    xfrNote.aux_info.valid_until < 901 ∧ (0 : F) ≠ xfrNote.aux_info.merkle_root := by
  have h : xfrNote.aux_info.valid_until = 900 := (C17_generate xfrKeys_eq complete xfrNote_eq).1
  exact ⟨xfrNote_verify _ (by decide), by decide, by rw [h]; decide, by decide +kernel⟩

/-- a batch without transfers -/
example : ∀ x ∈ [TransactionNote.mint mintNote, TransactionNote.freeze frzNote], ∀ n, x ≠ .transfer n := by
  intro x hx n
  simp only [List.mem_cons, List.not_mem_nil, or_false] at hx
  rcases hx with rfl | rfl <;> simp

/-- a batch of all three kinds that is accepted at time 900 -/
example : txnBatchVerify [.transfer xfrNote, .mint mintNote, .freeze frzNote]
    [xfrNote.aux_info.merkle_root, mintNote.aux_info.merkle_root, frzNote.aux_info.merkle_root] 900
    [.transfer xfrVk, .mint mintVk, .freeze frzVk] = .ok () := by
  have ht := TransferNote.verify_ok.1 (xfrNote_verify 900 (by decide))
  have hm := MintNote.verify_ok.1 mintNote_verify
  have hf := FreezeNote.verify_ok.1 frzNote_verify
  have e1 : (TransactionNote.transfer xfrNote).publicScalars xfrNote.aux_info.merkle_root 900 =
      .ok xfrNote.pub.toScalars := by
    have h : xfrNote.checkInstance xfrNote.aux_info.merkle_root 900 = .ok xfrNote.pub :=
      TransferNote.checkInstance_ok.2 ⟨rfl, ht.2.1, rfl⟩
    simp only [TransactionNote.publicScalars, h]; rfl
  have e2 : (TransactionNote.mint mintNote).publicScalars mintNote.aux_info.merkle_root 900 =
      .ok mintNote.pub.toScalars := by
    have h : mintNote.checkInstance mintNote.aux_info.merkle_root = .ok mintNote.pub :=
      MintNote.checkInstance_ok.2 ⟨rfl, rfl⟩
    simp only [TransactionNote.publicScalars, h]; rfl
  have e3 : (TransactionNote.freeze frzNote).publicScalars frzNote.aux_info.merkle_root 900 =
      .ok frzNote.pub.toScalars := by
    have h : frzNote.checkInstance frzNote.aux_info.merkle_root = .ok frzNote.pub :=
      FreezeNote.checkInstance_ok.2 ⟨rfl, rfl⟩
    simp only [TransactionNote.publicScalars, h]; rfl
  unfold txnBatchVerify
  rw [if_neg (by simp)]
  simp only [batchPublicInputs, e1, e2, e3, bind_ok_iff, ensure_ok_iff]
  refine ⟨_, ⟨_, rfl, _, ⟨_, rfl, _, ⟨_, rfl, _, rfl, rfl⟩, rfl⟩, rfl⟩, ?_⟩
  refine (batch _ (by simp [batchItems])).2 ?_
  intro x hx
  simp only [batchItems, List.mem_cons, List.not_mem_nil, or_false] at hx
  rcases hx with rfl | rfl | rfl
  · exact ht.2.2
  · have h := hm.2.2
    rw [← List.append_nil (E.verKeyBytes mintNote.aux_info.txn_memo_ver_key)] at h
    exact h
  · have h := hf.2
    rw [← List.append_nil (E.verKeyBytes frzNote.aux_info.txn_memo_ver_key)] at h
    exact h

end Cap.Examples
