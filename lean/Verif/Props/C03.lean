/-
C03: a mint or freeze note cannot pay a fee larger than the record it spends.

status: partial
note: FALSE of the code: neither circuit range-checks the change, so the equation change + fee = spent only holds in the field. C03_mint_false, C03_freeze_false: for every instantiation, every native record and every fee (also one larger than the record) there is an accepted note that pays this fee from this record; its change is negative in the field. C03_mint_partial, C03_freeze_partial: the equation holds over the integers if the change amount fits in 128 bits; C03_*_records_partial: so it does if the change is a record that the library can hold. C03_mint_generated, C03_freeze_generated: it holds for generated notes.
-/
import Verif.Lemmas.ForgeMintFreeze
import Verif.Lemmas.Opened

namespace Cap

open Spec

variable [E : CapEnv] [S : CapExt]

omit S in
theorem wrapped_val {x fee : Amount} (h : x.val < fee.val) :
    (Amount.toF x - Amount.toF fee : F).val = E.p - (fee.val - x.val) := by
  have hp := E.p_gt
  have hf := fee.isLt
  have h128 : (2 : ℕ) ^ 128 < 2 ^ 252 := by norm_num
  have e : (Amount.toF x - Amount.toF fee : F) = ((E.p - (fee.val - x.val) : ℕ) : F) := by
    rw [Nat.cast_sub (by omega), Nat.cast_sub (by omega)]
    simp [Amount.toF]
  rw [e]
  exact ZMod.val_natCast_of_lt (by omega)

/-- **Negation, mint.**  From any unfrozen native record, its owner can make an accepted mint note with any fee larger
than its amount, and mint any amount of a new asset with it; the change record holds `p - (fee - amount)`. -/
theorem C03_mint_false (complete : SnarkComplete) {d : Fin 256} {pk : MintProvingKey} {vk : MintVerifyingKey}
    (keys : mintPreprocess d = .ok (pk, vk)) {fee_ro : RecordOpening} {k : UserKeyPair}
    (fee_asset : fee_ro.asset_def = AssetDefinition.native) (fee_unfrozen : fee_ro.freeze_flag = .unfrozen)
    (fee_owner : fee_ro.pub_key.address = k.address) (fee : Amount) (too_much : fee_ro.amount < fee) :
    ∃ n w, OpensMint d.val n w ∧ n.verify vk n.aux_info.merkle_root = .ok () ∧ n.aux_info.fee = fee ∧
      w.fee_ro = fee_ro.toV ∧ w.chg_ro.amount.val = E.p - (fee.val - fee_ro.amount.val) := by
  obtain ⟨π, ho, hv, -⟩ := mint_forge complete keys (fee_ro := fee_ro)
    (mint_ro := ⟨0, ⟨domesticFromInternal (internalCode 0 0), AssetPolicy.default⟩, fee_ro.pub_key, .unfrozen, 0⟩) (k := k)
    (fee := fee) (acc := ⟨0, edge d.val⟩) (seed := 0) (digest := 0) fee_asset fee_unfrozen fee_owner
    (Forgery.edge_length _) rfl (by norm_num) rfl
  exact ⟨_, _, ho, hv rfl, rfl, rfl, wrapped_val too_much⟩

/-- **Negation, freeze.**  The same for freeze notes, of any number of inputs. -/
theorem C03_freeze_false (complete : SnarkComplete) {m : ℕ} {d : Fin 256} {pk : FreezeProvingKey}
    {vk : FreezeVerifyingKey} (keys : freezePreprocess m d = .ok (pk, vk)) {fee_ro : RecordOpening} {k : UserKeyPair}
    (fee_asset : fee_ro.asset_def = AssetDefinition.native) (fee_unfrozen : fee_ro.freeze_flag = .unfrozen)
    (fee_owner : fee_ro.pub_key.address = k.address) (fee : Amount) (too_much : fee_ro.amount < fee) :
    ∃ n w, OpensFreeze m d.val n w ∧ n.verify vk n.aux_info.merkle_root = .ok () ∧ n.aux_info.fee = fee ∧
      w.fee_ro = fee_ro.toV ∧ w.chg_ro.amount.val = E.p - (fee.val - fee_ro.amount.val) := by
  obtain ⟨hm, -⟩ := freezePreprocess_key keys
  obtain ⟨e, rfl⟩ : ∃ e, m = (List.replicate e (dummyFreezeInput d.val)).length + 1 := ⟨m - 1, by simp; omega⟩
  obtain ⟨π, ho, hv⟩ := freeze_forge complete keys (fee_ro := fee_ro) (k := k)
    (fee := fee) (acc := ⟨0, edge d.val⟩) fee_asset fee_unfrozen fee_owner (Forgery.edge_length _)
    (by
      intro i hi
      rw [List.eq_of_mem_replicate hi]
      exact dummyFreezeInput_ok _ _)
  exact ⟨_, _, ho, hv, rfl, rfl, wrapped_val too_much⟩

omit S in
theorem fee_nat {spent chg : F} {fee : Amount} (h : Amount.toF fee + chg = spent) (hs : chg.val < 2 ^ 128) :
    spent.val = chg.val + fee.val := by
  have hf := fee.isLt
  have e : spent = ((chg.val + fee.val : ℕ) : F) := by
    rw [Nat.cast_add, f_cast_val, ← h]
    unfold Amount.toF
    ring
  rw [e, natF_val (by have : (2:ℕ) ^ 128 + 2 ^ 128 < 2 ^ 252 := by norm_num
                      omega)]

/-- **What holds, mint.**  If the change amount fits in 128 bits, the spent amount is the change plus the fee; the fee
record and the change are native and belong to the same owner. -/
theorem C03_mint_partial {d : ℕ} {n : MintNote} {w : MintWit} (h : OpensMint d n w)
    (small : w.chg_ro.amount.val < 2 ^ 128) :
    w.fee_ro.amount.val = w.chg_ro.amount.val + n.aux_info.fee.val ∧ w.fee_ro.asset_code = nativeCode ∧
      w.chg_ro.asset_code = nativeCode ∧ w.fee_ro.owner_addr = w.chg_ro.owner_addr :=
  ⟨fee_nat h.sat.balance small, h.sat.fee_code, h.sat.chg_code, h.sat.same_owner⟩

/-- **What holds, freeze.** -/
theorem C03_freeze_partial {m d : ℕ} {n : FreezeNote} {w : FreezeWit} (h : OpensFreeze m d n w)
    (small : w.chg_ro.amount.val < 2 ^ 128) :
    w.fee_ro.amount.val = w.chg_ro.amount.val + n.aux_info.fee.val ∧ w.fee_ro.asset_code = nativeCode ∧
      w.chg_ro.asset_code = nativeCode := by
  obtain ⟨v, hv, hs, hsat⟩ := h
  have hf : v.fee = Amount.toF n.aux_info.fee ∧ v.native_asset_code = nativeCode := by
    unfold FreezePublicInput.toV at hv
    split at hv
    · cases hv; exact ⟨rfl, rfl⟩
    · cases hv
  have hb := hsat.balance
  rw [hf.1, add_comm] at hb
  exact ⟨fee_nat hb small, hsat.fee_code.trans hf.2, hsat.chg_code.trans hf.2⟩

/-- **Records, mint.**  If the spent and the created record are records that the library can represent, the spent
amount is the change plus the fee. -/
theorem C03_mint_records_partial {d : ℕ} {n : MintNote} {w : MintWit} (h : OpensMint d n w) {fee_ro chg : RecordOpening}
    (hf : Reads fee_ro w.fee_ro) (hc : Reads chg w.chg_ro) :
    fee_ro.amount.val = chg.amount.val + n.aux_info.fee.val := by
  have := (C03_mint_partial h (by rw [reads_amount hc]; exact chg.amount.isLt)).1
  rwa [reads_amount hf, reads_amount hc] at this

/-- **Records, freeze.** -/
theorem C03_freeze_records_partial {m d : ℕ} {n : FreezeNote} {w : FreezeWit} (h : OpensFreeze m d n w)
    {fee_ro chg : RecordOpening} (hf : Reads fee_ro w.fee_ro) (hc : Reads chg w.chg_ro) :
    fee_ro.amount.val = chg.amount.val + n.aux_info.fee.val := by
  have := (C03_freeze_partial h (by rw [reads_amount hc]; exact chg.amount.isLt)).1
  rwa [reads_amount hf, reads_amount hc] at this

/-- **Generated mint notes** pay exactly the difference, and publish it as the fee. -/
theorem C03_mint_generated {rng : TransferRand} {mint_ro : RecordOpening} {ac_seed : F} {desc : List Byte}
    {fee : TxnFeeInfo} {pk : MintProvingKey} {n : MintNote} {sk : Fr}
    (gen : MintNote.generate rng mint_ro ac_seed desc fee pk = .ok (n, sk)) :
    fee.fee_input.ro.amount.val = fee.fee_chg_ro.amount.val + n.aux_info.fee.val ∧
      fee.fee_input.ro.asset_def = AssetDefinition.native ∧ fee.fee_chg_ro.asset_def = AssetDefinition.native := by
  have h := MintNote.generate_ok.1 gen
  have hf : n.aux_info.fee = fee.fee_amount := congrArg MintPublicInput.fee h.pub
  rw [hf]
  have := h.checks.fee_ok
  exact ⟨by have := this.balance; omega, this.fee_native, this.chg_native⟩

/-- **Generated freeze notes** as well. -/
theorem C03_freeze_generated {rng : FreezeRand} {inputs : List FreezeNoteInput} {fee : TxnFeeInfo}
    {pk : FreezeProvingKey} {n : FreezeNote} {sk : Fr} {outs : List RecordOpening}
    (gen : FreezeNote.generate rng inputs fee pk = .ok (n, sk, outs)) :
    fee.fee_input.ro.amount.val = fee.fee_chg_ro.amount.val + n.aux_info.fee.val ∧
      fee.fee_input.ro.asset_def = AssetDefinition.native ∧ fee.fee_chg_ro.asset_def = AssetDefinition.native := by
  have h := FreezeNote.generate_ok.1 gen
  have hf : n.aux_info.fee = fee.fee_amount := congrArg FreezePublicInput.fee h.pub
  rw [hf]
  have := h.checks.fee_ok
  exact ⟨by have := this.balance; omega, this.fee_native, this.chg_native⟩

end Cap

namespace Cap.Examples
open Toy Spec

/-- instances of the negations: a fee of 1000 from a record of 100 -/
example : feeRec.asset_def = AssetDefinition.native ∧ feeRec.freeze_flag = .unfrozen ∧
    feeRec.pub_key.address = alice.address ∧ feeRec.amount < 1000 ∧ (∃ pk vk, mintPreprocess 1 = .ok (pk, vk)) ∧
    ∃ pk vk, freezePreprocess 3 1 = .ok (pk, vk) :=
  ⟨rfl, rfl, rfl, by decide +kernel, ⟨_, _, rfl⟩, ⟨_, _, rfl⟩⟩

/-- the example mint satisfies the hypotheses of the positive theorems -/
example : ∃ w, OpensMint 1 mintNote w ∧ w.chg_ro.amount.val < 2 ^ 128 ∧ Reads feeRec w.fee_ro ∧
    Reads feeInfo.fee_chg_ro w.chg_ro :=
  ⟨_, mint_opens, by
    show (Amount.toF _).val < _
    rw [Amount.toF_val]; exact Fin.isLt _, Reads.toV _, Reads.toV _⟩

/-- so does the example freeze -/
example : ∃ w, OpensFreeze 4 1 frzNote w ∧ w.chg_ro.amount.val < 2 ^ 128 ∧ Reads feeRec w.fee_ro ∧
    Reads feeInfo.fee_chg_ro w.chg_ro :=
  ⟨_, frz_opens, by
    show (Amount.toF _).val < _
    rw [Amount.toF_val]; exact Fin.isLt _, Reads.toV _, Reads.toV _⟩

/-- generated notes -/
example : feeInfo.fee_input.ro.amount.val = feeInfo.fee_chg_ro.amount.val + mintNote.aux_info.fee.val :=
  (C03_mint_generated mintNote_eq).1
example : feeInfo.fee_input.ro.amount.val = feeInfo.fee_chg_ro.amount.val + frzNote.aux_info.fee.val :=
  (C03_freeze_generated frzNote_eq).1

end Cap.Examples
