/-
Model of `/repo/src/circuit/structs.rs`, `/repo/src/circuit/gadgets.rs` and
`/repo/src/circuit/gadgets_helper.rs`.

A circuit is modelled by the values of its variables: a `Variable` is a field element, a `BoolVar` a
`Bool` (the gadget that creates it constrains it to 0/1), a `PointVariable` a pair of coordinates.  A gadget that
returns a variable determined by its inputs is a function; a gate is a proposition.
-/
import Verif.Model.Keys

namespace Cap

variable [E : CapEnv]

/-- `circuit/structs.rs:196-202` `AssetPolicyVar` -/
structure PolicyV where
  viewer_pk : PtV
  cred_pk : PtV
  freezer_pk : PtV
  reveal_map : F
  reveal_threshold : F
deriving DecidableEq

/-- `circuit/structs.rs:108-115` `RecordOpeningVar` -/
structure RecordV where
  amount : F
  asset_code : F
  owner_addr : PtV
  policy : PolicyV
  freeze_flag : Bool
  blind : F
deriving DecidableEq

/-- the field value of a `BoolVar` -/
def boolF (b : Bool) : F := if b then 1 else 0

/-- `circuit/structs.rs:144-182`, the committed scalars -/
def RecordV.scalars (ro : RecordV) : List F :=
  [ ro.amount, ro.asset_code, ro.owner_addr.1, ro.owner_addr.2,
    ro.policy.viewer_pk.1, ro.policy.viewer_pk.2, ro.policy.cred_pk.1, ro.policy.cred_pk.2,
    ro.policy.freezer_pk.1, ro.policy.freezer_pk.2,
    2 * ro.policy.reveal_map + boolF ro.freeze_flag, ro.policy.reveal_threshold ]

/-- `circuit/structs.rs:144-182` `compute_record_commitment` -/
def RecordV.commitment (ro : RecordV) : F := E.commit ro.scalars ro.blind

/-- `circuit/structs.rs:185-193` `check_asset_code_dummy` -/
def RecordV.isDummy (ro : RecordV) : Bool := ro.asset_code = dummyCode

namespace PolicyV

/-- `circuit/structs.rs:311-316` `is_dummy_cred_pk` -/
def isDummyCredPk (p : PolicyV) : Bool := p.cred_pk = neutral
/-- `circuit/structs.rs:320-325` `is_dummy_viewing_pk` -/
def isDummyViewingPk (p : PolicyV) : Bool := p.viewer_pk = neutral
/-- `circuit/structs.rs:329-334` `is_dummy_freezer_pk` -/
def isDummyFreezerPk (p : PolicyV) : Bool := p.freezer_pk = neutral

/-- `circuit/structs.rs:245-256` `enforce_dummy_policy` -/
def EnforceDummy (p : PolicyV) : Prop :=
  p.viewer_pk = neutral ∧ p.cred_pk = neutral ∧ p.freezer_pk = neutral ∧ p.reveal_map = 0 ∧
    p.reveal_threshold = 0

/-- `circuit/structs.rs:259-277` `is_dummy_policy`: note that map and threshold are added -/
def isDummyPolicy (p : PolicyV) : Bool :=
  p.isDummyViewingPk && p.isDummyCredPk && p.isDummyFreezerPk &&
    decide (p.reveal_map + p.reveal_threshold = 0)

/-- `circuit/structs.rs:280-291` `enforce_equal_policy` -/
def EnforceEqual (p q : PolicyV) : Prop :=
  p.reveal_map = q.reveal_map ∧ p.reveal_threshold = q.reveal_threshold ∧
    p.viewer_pk = q.viewer_pk ∧ p.cred_pk = q.cred_pk ∧ p.freezer_pk = q.freezer_pk

/-- `circuit/structs.rs:295-307` `check_equal_policy` -/
def checkEqual (p q : PolicyV) : Bool :=
  decide (p.reveal_map = q.reveal_map) && decide (p.viewer_pk = q.viewer_pk) &&
    decide (p.cred_pk = q.cred_pk) && decide (p.freezer_pk = q.freezer_pk) &&
    decide (p.reveal_threshold = q.reveal_threshold)

instance (p : PolicyV) : Decidable p.EnforceDummy := by unfold EnforceDummy; infer_instance
instance (p q : PolicyV) : Decidable (p.EnforceEqual q) := by unfold EnforceEqual; infer_instance

end PolicyV

/-- jf-relation `enforce_in_range` / `is_in_range`: the canonical representative has at most `bits` bits -/
def InRange (x : F) (bits : ℕ) : Prop := x.val < 2 ^ bits
instance (x : F) (n : ℕ) : Decidable (InRange x n) := inferInstanceAs (Decidable (_ < _))

/-- `circuit/structs.rs:353-359` `ExpirableCredVar` -/
structure CredV where
  attrs : List F
  expiry : F
  cred : E.Sig
  user_addr : PtV
  creator_pk : PtV

/-- the message of `circuit/structs.rs:414-423` -/
def CredV.msg (c : CredV) : List F := [c.expiry, c.user_addr.1, c.user_addr.2] ++ c.attrs

/-- the gate of `circuit/structs.rs:409-410`: `expiry - valid_until` has at most 20 bits -/
def CredV.EnforceNotExpired (c : CredV) (valid_until : F) : Prop :=
  InRange (c.expiry - valid_until) MAX_TIMESTAMP_LEN

/-- the returned bit of `circuit/structs.rs:397-430` `ExpirableCredVar::verify` -/
def CredV.sigValid (c : CredV) : Bool := E.schnorrVerify c.creator_pk c.msg c.cred

/-! ### Merkle paths (jf-primitives `merkle_tree`) -/

/-- position of a node among its two siblings -/
inductive NodePos where
  | left
  | middle
  | right
deriving DecidableEq, Repr

/-- jf-primitives `MerklePathNode` and its circuit version -/
structure PathNode where
  sibling1 : F
  sibling2 : F
  pos : NodePos
deriving DecidableEq

/-- one step from a node to its parent -/
def PathNode.step (cur : F) (n : PathNode) : F :=
  match n.pos with
  | .left => E.nodeHash cur n.sibling1 n.sibling2
  | .middle => E.nodeHash n.sibling1 cur n.sibling2
  | .right => E.nodeHash n.sibling1 n.sibling2 cur

/-- jf-primitives `compute_merkle_root` (circuit) and the fold of `MerkleTree::check_proof` -/
def merkleRoot (uid elem : F) (path : List PathNode) : F :=
  path.foldl PathNode.step (E.leafHash uid elem)

/-- jf-primitives `AccMemberWitnessVar` -/
structure AccV where
  uid : F
  path : List PathNode

/-! ### Gadgets -/

/-- `circuit/gadgets.rs:23-26` -/
inductive Spender where
  | user
  | freezer
deriving DecidableEq

/-- `circuit/gadgets_helper.rs:44-50` -/
def deriveInternalAssetCodeV (seed aux : F) : F := E.prf seed [aux]

/-- `circuit/gadgets_helper.rs:52-59` `derive_user_address` -/
def deriveUserAddressV (sk : F) : PtV := E.xy (sk.val • E.gen)

/-- `circuit/gadgets_helper.rs:61-73` `derive_nullifier_key` -/
def deriveNullifierKeyV (sk : F) (pk : PtV) : F :=
  if pk = neutral then sk else E.hash3 (E.ecMul sk.val pk).1 (E.ecMul sk.val pk).2 0

/-- `circuit/gadgets_helper.rs:75-82` `nullify` -/
def nullifyV (key uid commitment : F) : F := E.prf key [uid, commitment]

/-- `circuit/gadgets.rs:144-148`: the key that has to be known -/
def spendPk (ro : RecordV) : Spender → PtV
  | .user => ro.owner_addr
  | .freezer => ro.policy.freezer_pk

/-- `circuit/gadgets.rs:144-148`: the other key -/
def spendOtherPk (ro : RecordV) : Spender → PtV
  | .user => ro.policy.freezer_pk
  | .freezer => ro.owner_addr

/-- `circuit/gadgets.rs:136-171` `prove_spend`: the gates.  `okScalar` comes from the bit decomposition
in the two scalar multiplications. -/
def SpendOk (ro : RecordV) (sk : F) (s : Spender) : Prop :=
  okScalar sk ∧ deriveUserAddressV sk = spendPk ro s

instance (ro : RecordV) (sk : F) (s : Spender) : Decidable (SpendOk ro sk s) := by
  unfold SpendOk; infer_instance

/-- `circuit/gadgets.rs:136-171` `prove_spend`: the nullifier it returns -/
def spendNullifier (ro : RecordV) (acc : AccV) (sk : F) (s : Spender) : F :=
  nullifyV (deriveNullifierKeyV sk (spendOtherPk ro s)) acc.uid ro.commitment

/-- `circuit/gadgets.rs:136-171` `prove_spend`: the root it returns -/
def spendRoot (ro : RecordV) (acc : AccV) : F := merkleRoot acc.uid ro.commitment acc.path

/-- `circuit/gadgets.rs:98-107`: the sum without the first element -/
def sumTail (l : List F) : F := l.tail.sum

/-- `circuit/gadgets.rs:79-134` `preserve_balance`: the three gates.  `in0`/`out0` are the first
amounts. -/
def PreserveBalance (native asset fee in0 out0 : F) (amounts_in amounts_out : List F) : Prop :=
  let amount_diff := sumTail amounts_in - sumTail amounts_out
  let native_amount_diff := in0 - out0 - fee
  let same : F := boolF (decide (native = asset))
  same * amount_diff + same * native_amount_diff = 0 ∧
  same * amount_diff = amount_diff ∧
  same * native_amount_diff = native_amount_diff

instance (a b c d e : F) (l m : List F) : Decidable (PreserveBalance a b c d e l m) := by
  unfold PreserveBalance; infer_instance

/-- `circuit/gadgets.rs:173-190` `hadamard_product` (lengths are equal in every circuit) -/
def hadamardV (bits vals : List F) : List F := List.zipWith (· * ·) bits vals

/-- `circuit/structs.rs:31-32` `ViewableMemoVar` -/
structure MemoV where
  ephemeral : PtV
  data : List F
deriving DecidableEq

/-- `circuit/structs.rs:84-95` `ViewableMemoVar::derive` (jf-primitives `elgamal_encrypt`) -/
def MemoV.derive (viewer_pk : PtV) (msg : List F) (rand : F) : MemoV :=
  { ephemeral := E.xy (rand.val • E.gen),
    data := applyStream (E.keystream (E.ecMul rand.val viewer_pk)) 0 msg }

/-- the public variables of a memo, `circuit/structs.rs:45-55` -/
def MemoV.toScalars (m : MemoV) : List F := [m.ephemeral.1, m.ephemeral.2] ++ m.data

/-- the `i`-th entry of `unpack(reveal_map, 12)` reversed, `circuit/transfer.rs:204-207`: most significant
of the 12 bits first -/
def mapBit (v : F) (i : ℕ) : Bool := v.val.testBit (11 - i)

end Cap
