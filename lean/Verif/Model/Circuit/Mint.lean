/-
Model of `/repo/src/circuit/mint.rs`.
-/
import Verif.Model.Circuit.Structs

namespace Cap

variable [E : CapEnv]

/-- `circuit/mint.rs:163-172` `MintWitnessVar` -/
structure MintWit where
  mint_ro : RecordV
  creator_sk : F
  fee_ro : RecordV
  acc : AccV
  chg_ro : RecordV
  ac_seed : F
  ac_digest : F
  enc_rand : F

/-- `circuit/mint.rs:209-221` `MintPubInputVar` -/
structure MintPub where
  root : F
  native_asset_code : F
  input_nullifier : F
  fee : F
  mint_rc : F
  chg_rc : F
  mint_amount : F
  mint_ac : F
  mint_internal_ac : F
  mint_policy : PolicyV
  memo : MemoV

/-- the public variables of a policy, `circuit/structs.rs:229-242` -/
def PolicyV.toScalars (p : PolicyV) : List F :=
  [p.reveal_map, p.viewer_pk.1, p.viewer_pk.2, p.cred_pk.1, p.cred_pk.2, p.freezer_pk.1, p.freezer_pk.2,
   p.reveal_threshold]

/-- public variables in the order of `circuit/mint.rs:227-258` -/
def MintPub.toScalars (p : MintPub) : List F :=
  [p.root, p.native_asset_code, p.input_nullifier, p.fee, p.mint_rc, p.chg_rc, p.mint_amount, p.mint_ac,
   p.mint_internal_ac] ++ p.mint_policy.toScalars ++ p.memo.toScalars

/-- `circuit/mint.rs:135-159` `is_correct_viewing_memo` -/
def mintCorrectMemoV (w : MintWit) (p : MintPub) : Bool :=
  p.memo = MemoV.derive w.mint_ro.policy.viewer_pk
    [w.mint_ro.owner_addr.1, w.mint_ro.owner_addr.2, w.mint_ro.blind] w.enc_rand

/-- The size of the circuit a key is preprocessed for (`proof/mint.rs:69-93`): tree depth `d`. -/
structure MintShape (d : ℕ) (w : MintWit) (p : MintPub) : Prop where
  path_len : w.acc.path.length = d
  memo_len : p.memo.data.length = 3

/-- `circuit/mint.rs:47-131` `MintCircuit::build`: the circuit can be built (the compared memos have the same
length) and every gate holds. -/
structure MintSat (w : MintWit) (p : MintPub) : Prop where
  memo_len : p.memo.data.length = 3
  mint_rc : w.mint_ro.commitment = p.mint_rc
  chg_rc : w.chg_ro.commitment = p.chg_rc
  internal : deriveInternalAssetCodeV w.ac_seed w.ac_digest = p.mint_internal_ac
  balance : p.fee + w.chg_ro.amount = w.fee_ro.amount
  spend : SpendOk w.fee_ro w.creator_sk .user
  root : spendRoot w.fee_ro w.acc = p.root
  nullifier : spendNullifier w.fee_ro w.acc w.creator_sk .user = p.input_nullifier
  mint_unfrozen : w.mint_ro.freeze_flag = false
  fee_unfrozen : w.fee_ro.freeze_flag = false
  chg_unfrozen : w.chg_ro.freeze_flag = false
  mint_range : InRange w.mint_ro.amount AMOUNT_LEN
  mint_amount : w.mint_ro.amount = p.mint_amount
  mint_code : w.mint_ro.asset_code = p.mint_ac
  mint_policy : p.mint_policy.EnforceEqual w.mint_ro.policy
  chg_code : w.chg_ro.asset_code = p.native_asset_code
  fee_code : w.fee_ro.asset_code = p.native_asset_code
  chg_policy : w.chg_ro.policy.EnforceDummy
  fee_policy : w.fee_ro.policy.EnforceDummy
  same_owner : w.fee_ro.owner_addr = w.chg_ro.owner_addr
  rand_ok : okScalar w.enc_rand
  memo : p.mint_policy.isDummyViewingPk = true ∨ mintCorrectMemoV w p = true

instance (w : MintWit) (p : MintPub) : Decidable (MintSat w p) :=
  decidable_of_iff
    ((p.memo.data.length = 3 ∧ w.mint_ro.commitment = p.mint_rc ∧ w.chg_ro.commitment = p.chg_rc ∧
      deriveInternalAssetCodeV w.ac_seed w.ac_digest = p.mint_internal_ac ∧
      p.fee + w.chg_ro.amount = w.fee_ro.amount ∧ SpendOk w.fee_ro w.creator_sk .user ∧
      spendRoot w.fee_ro w.acc = p.root ∧ spendNullifier w.fee_ro w.acc w.creator_sk .user = p.input_nullifier) ∧
     (w.mint_ro.freeze_flag = false ∧ w.fee_ro.freeze_flag = false ∧ w.chg_ro.freeze_flag = false ∧
      InRange w.mint_ro.amount AMOUNT_LEN ∧ w.mint_ro.amount = p.mint_amount ∧
      w.mint_ro.asset_code = p.mint_ac ∧ p.mint_policy.EnforceEqual w.mint_ro.policy) ∧
     w.chg_ro.asset_code = p.native_asset_code ∧ w.fee_ro.asset_code = p.native_asset_code ∧
     w.chg_ro.policy.EnforceDummy ∧ w.fee_ro.policy.EnforceDummy ∧ w.fee_ro.owner_addr = w.chg_ro.owner_addr ∧
     okScalar w.enc_rand ∧ (p.mint_policy.isDummyViewingPk = true ∨ mintCorrectMemoV w p = true))
    ⟨fun ⟨⟨a, b, c, d, e, f, g, h⟩, ⟨i, j, k, l, m, n, o⟩, q, r, s, t, u, v, x⟩ =>
      ⟨a, b, c, d, e, f, g, h, i, j, k, l, m, n, o, q, r, s, t, u, v, x⟩,
     fun ⟨a, b, c, d, e, f, g, h, i, j, k, l, m, n, o, q, r, s, t, u, v, x⟩ =>
      ⟨⟨a, b, c, d, e, f, g, h⟩, ⟨i, j, k, l, m, n, o⟩, q, r, s, t, u, v, x⟩⟩

instance (d : ℕ) (w : MintWit) (p : MintPub) : Decidable (MintShape d w p) :=
  decidable_of_iff (w.acc.path.length = d ∧ p.memo.data.length = 3) ⟨fun ⟨a, b⟩ => ⟨a, b⟩, fun ⟨a, b⟩ => ⟨a, b⟩⟩

end Cap
