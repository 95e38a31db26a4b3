/-
C43: a transfer proof is bound to its memo key and extra data.

status: proved
note: The bound message determines key and data; a proof valid for the bound message only is rejected with any other key or data (all three kinds of notes).
-/
import Verif.Lemmas.Verify
import Verif.Props.C17
import Verif.Props.C18
import Verif.Props.C19

namespace Cap

variable [E : CapEnv] [S : CapExt]

/-- the extra data bound to the proof of a note: only transfers have any -/
def extraData : TransactionNote → List Byte
  | .transfer n => n.aux_info.extra_proof_bound_data
  | .mint _ => []
  | .freeze _ => []

/-- No key/data pair shares its bound message with another one, across all kinds of notes. -/
theorem C43_injective (t t' : TransactionNote) (h : t.extMsg = t'.extMsg) :
    t.txnMemoVerKey = t'.txnMemoVerKey ∧ extraData t = extraData t' := by
  have hm : ∀ t : TransactionNote, t.extMsg = E.verKeyBytes t.txnMemoVerKey ++ extraData t := by
    intro t; cases t <;> rfl
  rw [hm, hm] at h
  obtain ⟨h1, h2⟩ := List.append_inj h (by rw [E.verKeyBytes_len, E.verKeyBytes_len])
  exact ⟨E.verKeyBytes_inj _ _ h1, h2⟩

/-- `verify` passes exactly this message to the proof system: with another message the note is rejected. -/
theorem C43_verify (root : F) (ts : U64) :
    (∀ (n : TransferNote) vk, n.verify vk root ts = .ok () →
      S.verify vk.key n.pub.toScalars n.proof (TransactionNote.transfer n).extMsg = true) ∧
    (∀ (n : MintNote) vk, n.verify vk root = .ok () →
      S.verify vk.key n.pub.toScalars n.proof (TransactionNote.mint n).extMsg = true) ∧
    (∀ (n : FreezeNote) vk, n.verify vk root = .ok () →
      S.verify vk.key n.pub.toScalars n.proof (TransactionNote.freeze n).extMsg = true) := by
  refine ⟨fun n vk h => (TransferNote.verify_ok.1 h).2.2, fun n vk h => ?_, fun n vk h => ?_⟩
  · simpa [TransactionNote.extMsg, TransactionNote.txnMemoVerKey] using (MintNote.verify_ok.1 h).2.2
  · simpa [TransactionNote.extMsg, TransactionNote.txnMemoVerKey] using (FreezeNote.verify_ok.1 h).2

/-- Let the proof of a transfer note be valid for the bound message of that note only.  Then every note with the same
proof and the same public inputs, but another memo verification key or other extra data, is rejected at all times. -/
theorem C43_transfer_binds (n n' : TransferNote) (vk : TransferVerifyingKey) (root : F) (t : U64)
    (only : ∀ m, m ≠ (TransactionNote.transfer n).extMsg → S.verify vk.key n.pub.toScalars n.proof m = false)
    (hproof : n'.proof = n.proof) (hpub : n'.pub = n.pub)
    (hdiff : n'.aux_info.txn_memo_ver_key ≠ n.aux_info.txn_memo_ver_key ∨
      n'.aux_info.extra_proof_bound_data ≠ n.aux_info.extra_proof_bound_data) :
    n'.verify vk root t ≠ .ok () := by
  intro h'
  have hv := (C43_verify root t).1 n' vk h'
  rw [hproof, hpub, only] at hv
  · cases hv
  · intro he
    obtain ⟨h1, h2⟩ := C43_injective _ _ he
    rcases hdiff with hd | hd
    · exact hd h1
    · exact hd h2

/-- The same for mint notes and their memo verification key. -/
theorem C43_mint_binds (n n' : MintNote) (vk : MintVerifyingKey) (root : F)
    (only : ∀ m, m ≠ (TransactionNote.mint n).extMsg → S.verify vk.key n.pub.toScalars n.proof m = false)
    (hproof : n'.proof = n.proof) (hpub : n'.pub = n.pub)
    (hdiff : n'.aux_info.txn_memo_ver_key ≠ n.aux_info.txn_memo_ver_key) :
    n'.verify vk root ≠ .ok () := by
  intro h'
  have hv := (C43_verify root 0).2.1 n' vk h'
  rw [hproof, hpub, only] at hv
  · cases hv
  · exact fun he => hdiff (C43_injective _ _ he).1

/-- The same for freeze notes and their memo verification key. -/
theorem C43_freeze_binds (n n' : FreezeNote) (vk : FreezeVerifyingKey) (root : F)
    (only : ∀ m, m ≠ (TransactionNote.freeze n).extMsg → S.verify vk.key n.pub.toScalars n.proof m = false)
    (hproof : n'.proof = n.proof) (hpub : n'.pub = n.pub)
    (hdiff : n'.aux_info.txn_memo_ver_key ≠ n.aux_info.txn_memo_ver_key) :
    n'.verify vk root ≠ .ok () := by
  intro h'
  have hv := (C43_verify root 0).2.2 n' vk h'
  rw [hproof, hpub, only] at hv
  · cases hv
  · exact fun he => hdiff (C43_injective _ _ he).1

end Cap

namespace Cap.Examples
open Toy

/-- in the toy proof system a proof is valid for one message only -/
theorem toy_only {k : Shape} {xs : List F} {π m m' : List Byte} (h : S.verify k xs π m' = true) (hm : m ≠ m') :
    S.verify k xs π m = false := by
  refine (@decide_eq_false_iff_not _ (Classical.dec _)).2 (fun hx => hm ?_)
  have h1 := ((@decide_eq_true_iff _ (Classical.dec _)).1 h).1
  exact (proofOf_inj (hx.1.symm.trans h1)).2.2

/-- the example transfer is accepted; its proof is valid for its message only -/
example : xfrNote.verify xfrVk xfrNote.aux_info.merkle_root 5 = .ok () ∧
    ∀ m, m ≠ (TransactionNote.transfer xfrNote).extMsg →
      S.verify xfrVk.key xfrNote.pub.toScalars xfrNote.proof m = false :=
  ⟨xfrNote_verify 5 (by decide), fun _ hm =>
    toy_only ((C43_verify xfrNote.aux_info.merkle_root 5).1 _ _ (xfrNote_verify 5 (by decide))) hm⟩

/-- the same for the mint note and the freeze note -/
example : (∀ m, m ≠ (TransactionNote.mint mintNote).extMsg →
      S.verify mintVk.key mintNote.pub.toScalars mintNote.proof m = false) ∧
    ∀ m, m ≠ (TransactionNote.freeze frzNote).extMsg →
      S.verify frzVk.key frzNote.pub.toScalars frzNote.proof m = false :=
  ⟨fun _ hm => toy_only ((C43_verify mintNote.aux_info.merkle_root 0).2.1 _ _ mintNote_verify) hm,
    fun _ hm => toy_only ((C43_verify frzNote.aux_info.merkle_root 0).2.2 _ _ frzNote_verify) hm⟩

/-- two notes of different kinds with the same key have the same message when there is no extra data -/
example : (TransactionNote.mint mintNote).extMsg = (TransactionNote.mint { mintNote with mint_amount := 5 }).extMsg := rfl

end Cap.Examples
