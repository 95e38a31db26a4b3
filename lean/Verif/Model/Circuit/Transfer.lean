/-
Model of `/repo/src/circuit/transfer.rs`.
-/
import Verif.Model.Circuit.Structs

namespace Cap

variable [E : CapEnv]

/-- `circuit/transfer.rs:375-380` `InputSecretVar` -/
structure InputV where
  addr_secret : F
  ro : RecordV
  acc : AccV
  cred : CredV

/-- `circuit/transfer.rs:289-295` `TransferWitnessVar` -/
structure TransferWit where
  asset_code : F
  policy : PolicyV
  inputs : List InputV
  outputs : List RecordV
  enc_rand : F

/-- `circuit/transfer.rs:329-337` `TransferPubInputVar` -/
structure TransferPub where
  root : F
  native_asset_code : F
  valid_until : F
  fee : F
  nullifiers : List F
  commitments : List F
  memo : MemoV

/-- public variables in the order of `circuit/transfer.rs:341-371` -/
def TransferPub.toScalars (p : TransferPub) : List F :=
  [p.root, p.native_asset_code, p.valid_until, p.fee] ++ p.nullifiers ++ p.commitments ++ p.memo.toScalars

/-- The size of the circuit a key is preprocessed for (`proof/transfer.rs:124-155` with the dummy witness of
`proof/transfer.rs:224-262`): `n` inputs, `m` outputs, Merkle depth `d`, and the memo length of
`structs.rs:1413`. -/
structure TransferShape (n m d : ℕ) (w : TransferWit) (p : TransferPub) : Prop where
  inputs_len : w.inputs.length = n
  outputs_len : w.outputs.length = m
  nullifiers_len : p.nullifiers.length = n
  commitments_len : p.commitments.length = m
  path_len : ∀ i ∈ w.inputs, i.acc.path.length = d
  memo_len : p.memo.data.length = (n - 1) * VIEWABLE_DATA_LEN + (m - 1) * 4 + 1

/-- `circuit/transfer.rs:89-103`: the gates that depend on the position of the input -/
def InputPosOk (w : TransferWit) (p : TransferPub) (first : Bool) (i : InputV) : Prop :=
  if first then i.ro.asset_code = p.native_asset_code ∧ i.ro.policy.EnforceDummy
  else (i.ro.isDummy = false ∨ i.ro.policy.isDummyPolicy = true) ∧
       (i.ro.isDummy = true ∨ i.ro.policy.checkEqual w.policy = true)

/-- `circuit/transfer.rs:72-125`: the gates of one input -/
def InputOk (w : TransferWit) (p : TransferPub) (first : Bool) (i : InputV) (nl : F) : Prop :=
  i.ro.freeze_flag = false ∧
  (i.ro.isDummy = false ∨ i.ro.amount = 0) ∧
  InputPosOk w p first i ∧
  SpendOk i.ro i.addr_secret .user ∧
  spendNullifier i.ro i.acc i.addr_secret .user = nl ∧
  (i.ro.isDummy = true ∨ spendRoot i.ro i.acc = p.root) ∧
  i.cred.attrs.length = ATTRS_LEN ∧
  i.cred.EnforceNotExpired p.valid_until ∧
  (i.ro.policy.isDummyCredPk = true ∨ i.cred.sigValid = true)

/-- `circuit/transfer.rs:127-156`: the gates of one output -/
def OutputOk (w : TransferWit) (p : TransferPub) (first : Bool) (o : RecordV) (rc : F) : Prop :=
  o.freeze_flag = false ∧
  (if first then o.asset_code = p.native_asset_code ∧ o.policy.EnforceDummy
   else o.asset_code = w.asset_code ∧ o.policy.EnforceEqual w.policy) ∧
  o.commitment = rc ∧
  InRange o.amount AMOUNT_LEN

/-- the loops of `circuit/transfer.rs:72-77, 127-132`: the first element is treated differently -/
def AllPos {α β : Type} (P : Bool → α → β → Prop) : Bool → List α → List β → Prop
  | b, a :: as, c :: cs => P b a c ∧ AllPos P false as cs
  | _, _, _ => True

/-- the revealed values of one input, `circuit/transfer.rs:209-252` -/
def inputMsgV (map : F) (i : InputV) : List F :=
  let d := i.ro.isDummy
  let addr : PtV := if d then neutral else i.ro.owner_addr
  let vals := [addr.1, addr.2, i.ro.amount, i.ro.blind] ++ i.cred.attrs
  let b0 := d || mapBit map 0
  hadamardV (([b0, b0] ++ (List.range' 2 10).map (mapBit map)).map boolF) vals

/-- the revealed values of one output, `circuit/transfer.rs:253-271` -/
def outputMsgV (map : F) (o : RecordV) : List F :=
  hadamardV (((List.range ASSET_TRACING_MAP_LEN).map (mapBit map)).map boolF) [o.owner_addr.1, o.owner_addr.2, o.amount, o.blind]

/-- the message of `circuit/transfer.rs:203-271` -/
def transferMsgV (w : TransferWit) : List F :=
  [w.asset_code] ++ w.inputs.tail.flatMap (inputMsgV w.policy.reveal_map) ++
    w.outputs.tail.flatMap (outputMsgV w.policy.reveal_map)

/-- `circuit/transfer.rs:197-285` `is_correct_viewing_memo`: the bit it returns -/
def correctMemoV (w : TransferWit) (p : TransferPub) : Bool :=
  p.memo = MemoV.derive w.policy.viewer_pk (transferMsgV w) w.enc_rand

/-- `circuit/transfer.rs:181-182`: `b_under_limit` -/
def underLimit (w : TransferWit) : Bool :=
  InRange (w.policy.reveal_threshold - sumTail (w.inputs.map (·.ro.amount))) AMOUNT_LEN

/-- `circuit/transfer.rs:57-66` (no empty side) and `circuit/transfer.rs:159-177` -/
def BalanceOk (w : TransferWit) (p : TransferPub) : Prop :=
  match w.inputs, w.outputs with
  | i0 :: _, o0 :: _ =>
    PreserveBalance p.native_asset_code w.asset_code p.fee i0.ro.amount o0.amount
      (w.inputs.map (·.ro.amount)) (w.outputs.map (·.amount))
  | _, _ => False

/-- `circuit/transfer.rs:53-193` `TransferCircuit::build`: the circuit can be built and every gate holds. -/
structure TransferSat (w : TransferWit) (p : TransferPub) : Prop where
  inputs : AllPos (InputOk w p) true w.inputs p.nullifiers
  outputs : AllPos (OutputOk w p) true w.outputs p.commitments
  balance : BalanceOk w p
  /-- `unpack` constrains the reveal map to 12 bits (`circuit/transfer.rs:204`) -/
  map_range : InRange w.policy.reveal_map VIEWABLE_DATA_LEN
  /-- the ElGamal gadget decomposes the randomizer -/
  rand_ok : okScalar w.enc_rand
  /-- `circuit/structs.rs:64-68` -/
  memo_len : p.memo.data.length = (transferMsgV w).length
  memo : (underLimit w = true ∨ w.policy.isDummyViewingPk = true) ∨ correctMemoV w p = true

/-! Decidability, so that the model of the prover is computable. -/

instance : (b : Bool) → (i : InputV) → (w : TransferWit) → (p : TransferPub) →
    Decidable (InputPosOk w p b i)
  | true, _, _, _ => by unfold InputPosOk; simp only [if_true]; infer_instance
  | false, _, _, _ => by unfold InputPosOk; simp only [Bool.false_eq_true, if_false]; infer_instance
instance (c : CredV) (v : F) : Decidable (c.EnforceNotExpired v) := by
  unfold CredV.EnforceNotExpired; infer_instance
instance (w : TransferWit) (p : TransferPub) (b : Bool) (i : InputV) (nl : F) :
    Decidable (InputOk w p b i nl) := by unfold InputOk; infer_instance
instance (w : TransferWit) (p : TransferPub) (b : Bool) (o : RecordV) (rc : F) :
    Decidable (OutputOk w p b o rc) := by
  unfold OutputOk; cases b <;> simp only [if_true, Bool.false_eq_true, if_false] <;> infer_instance
instance AllPos.dec {α β : Type} (P : Bool → α → β → Prop) [∀ b x y, Decidable (P b x y)] :
    (b : Bool) → (l : List α) → (m : List β) → Decidable (AllPos P b l m)
  | b, a :: as, c :: cs =>
    have := AllPos.dec P false as cs
    inferInstanceAs (Decidable (P b a c ∧ AllPos P false as cs))
  | _, [], _ => isTrue (by simp [AllPos])
  | _, _ :: _, [] => isTrue (by simp [AllPos])
instance (w : TransferWit) (p : TransferPub) : Decidable (BalanceOk w p) := by
  unfold BalanceOk; split <;> infer_instance
instance (w : TransferWit) (p : TransferPub) : Decidable (TransferSat w p) :=
  decidable_of_iff
    (AllPos (InputOk w p) true w.inputs p.nullifiers ∧ AllPos (OutputOk w p) true w.outputs p.commitments ∧
     BalanceOk w p ∧ InRange w.policy.reveal_map VIEWABLE_DATA_LEN ∧ okScalar w.enc_rand ∧
     p.memo.data.length = (transferMsgV w).length ∧
     ((underLimit w = true ∨ w.policy.isDummyViewingPk = true) ∨ correctMemoV w p = true))
    ⟨fun ⟨a, b, c, d, e, f, g⟩ => ⟨a, b, c, d, e, f, g⟩, fun ⟨a, b, c, d, e, f, g⟩ => ⟨a, b, c, d, e, f, g⟩⟩

instance (n m d : ℕ) (w : TransferWit) (p : TransferPub) : Decidable (TransferShape n m d w p) :=
  decidable_of_iff
    (w.inputs.length = n ∧ w.outputs.length = m ∧ p.nullifiers.length = n ∧ p.commitments.length = m ∧
      (∀ i ∈ w.inputs, i.acc.path.length = d) ∧
      p.memo.data.length = (n - 1) * VIEWABLE_DATA_LEN + (m - 1) * 4 + 1)
    ⟨fun ⟨a, b, c, d, e, f⟩ => ⟨a, b, c, d, e, f⟩, fun ⟨a, b, c, d, e, f⟩ => ⟨a, b, c, d, e, f⟩⟩

end Cap
