/-
The specification vocabulary used in the statements of the properties.  Nothing here refers to proofs, and
only records, notes and lists of the model's data types are mentioned.
-/
import Verif.Model.Txn

namespace Cap.Spec

/-- Two *given* inputs on which a function collides.  (Statements always name the two inputs: "there is a
collision somewhere" would be true of every compressing function.) -/
def Collides {α β : Type} (f : α → β) (x y : α) : Prop := x ≠ y ∧ f x = f y

variable [E : CapEnv]

/-- the amount of an asset in a list of records, as a natural number -/
def totalOf (c : AssetCode) (l : List RecordOpening) : ℕ :=
  ((l.filter (fun r => r.asset_def.code = c)).map (fun r => r.amount.val)).sum

/-- the amount in a list of records, whatever the asset -/
def total (l : List RecordOpening) : ℕ := (l.map (fun r => r.amount.val)).sum

/-- the records that are not dummies -/
def real (l : List RecordOpening) : List RecordOpening := l.filter (fun r => r.asset_def ≠ AssetDefinition.dummy)

/-- Inputs and outputs balance, per asset and over the natural numbers; the fee is paid in the asset of the first
input. -/
def Balanced (inputs outputs : List RecordOpening) (fee : Amount) : Prop :=
  ∃ i0 is, inputs = i0 :: is ∧
    ∀ c : AssetCode, totalOf c (real inputs) = totalOf c outputs + (if c = i0.asset_def.code then fee.val else 0)

/-! ### Accepted notes

A verified proof comes with an assignment to the variables of the circuit (`SnarkSound`).  The assignment is not
made of host values: amounts and maps are arbitrary field elements, points arbitrary pairs of coordinates. -/

variable [S : CapExt]

/-- `w` satisfies the transfer circuit with `a` inputs, `b` outputs and Merkle depth `d` for the note `n` -/
structure OpensTransfer (a b d : ℕ) (n : TransferNote) (w : TransferWit) : Prop where
  shape : TransferShape a b d w n.pub.toV
  sat : TransferSat w n.pub.toV

/-- `w` satisfies the mint circuit with Merkle depth `d` for the note `n` -/
structure OpensMint (d : ℕ) (n : MintNote) (w : MintWit) : Prop where
  shape : MintShape d w n.pub.toV
  sat : MintSat w n.pub.toV

/-- `w` satisfies the freeze circuit with `k` inputs and Merkle depth `d` for the note `n` -/
def OpensFreeze (k d : ℕ) (n : FreezeNote) (w : FreezeWit) : Prop :=
  ∃ v, n.pub.toV = some v ∧ FreezeShape k d w v ∧ FreezeSat w v

omit S in
/-- The host's record opening `ro` and the circuit's record `v` have the same committed values. -/
def Reads (ro : RecordOpening) (v : RecordV) : Prop := ro.scalars = v.scalars ∧ ro.blind = v.blind

omit S in
/-- the commitment function of a list of scalars and a blinding factor -/
def commitOf (x : List F × F) : F := E.commit x.1 x.2

/-! ### What a viewer may see -/

omit S

/-- a record's fields that the reveal map of the asset selects: bit 0 the owner, bit 2 the amount, bit 3 the blinding
factor -/
def viewOf (ad : AssetDefinition) (ro : RecordOpening) (attributes : List (Option IdentityAttribute)) : ViewableData :=
  { asset_code := ad.code,
    user_address := if ad.policy.reveal_map[0] then some ro.pub_key.address else none,
    amount := if ad.policy.reveal_map[2] then some ro.amount else none,
    blinding_factor := if ad.policy.reveal_map[3] then some ro.blind else none,
    attributes }

/-- what the viewer sees of a spent record: also the credential's attributes selected by bits 4 to 11 -/
def viewInput (ad : AssetDefinition) (ro : RecordOpening) (attrs : List IdentityAttribute) : ViewableData :=
  viewOf ad ro (List.zipWith (fun b a => if b then some a else none) (ad.policy.reveal_map.toList.drop 4) attrs)

/-- what the viewer sees of a created record: no attributes -/
def viewOutput (ad : AssetDefinition) (ro : RecordOpening) : ViewableData := viewOf ad ro (List.replicate 8 none)

/-! ### The plaintext of a memo -/

/-- a field of the message: its value if the policy reveals it, zero otherwise -/
def shown (revealed : Bool) (v : F) : F := if revealed then v else 0

/-- what the memo contains of a spent record: the owner's coordinates, the amount, the blinding factor and the
attributes of the credential, each only if revealed.  A dummy shows the coordinates of the neutral element. -/
def plainInput (m : RevealMap) (ro : RecordOpening) (attrs : List IdentityAttribute) : List F :=
  (if ro.asset_def = AssetDefinition.dummy then [ptX (0 : Pt), ptY (0 : Pt)]
   else [shown m[0] (ptX ro.pub_key.address), shown m[1] (ptY ro.pub_key.address)]) ++
  [shown m[2] (Amount.toF ro.amount), shown m[3] ro.blind] ++ List.zipWith shown (m.toList.drop 4) attrs

/-- what the memo contains of a created record -/
def plainOutput (m : RevealMap) (ro : RecordOpening) : List F :=
  [shown m[0] (ptX ro.pub_key.address), shown m[1] (ptY ro.pub_key.address), shown m[2] (Amount.toF ro.amount),
   shown m[3] ro.blind]

/-- the attributes that go with an input: none (eight zeros) if its policy asks for no credential -/
def attrsOf (i : TransferNoteInput) : List IdentityAttribute :=
  if i.ro.asset_def.policy.cred_pk = 0 then List.replicate 8 0
  else match i.cred with
    | some c => c.attrs
    | none => []

/-- the plaintext of the memo of a transfer of `ad`: the fee input and the fee change are not in it -/
def plainMessage (ad : AssetDefinition) (inputs : List TransferNoteInput) (outputs : List RecordOpening) : List F :=
  ad.code :: (inputs.tail.flatMap (fun i => plainInput ad.policy.reveal_map i.ro (attrsOf i)) ++
    outputs.tail.flatMap (plainOutput ad.policy.reveal_map))

/-- the amount a transfer moves, without the fee input -/
def moved (inputs : List TransferNoteInput) : ℕ := total (real (inputs.tail.map (·.ro)))

/-- `ad` is the asset of a record that the transfer spends besides the fee record -/
def Moves (ad : AssetDefinition) (inputs : List TransferNoteInput) : Prop :=
  ad ≠ AssetDefinition.dummy ∧ ∃ i ∈ inputs.tail, i.ro.asset_def = ad

/-- For the viewer, two inputs look the same: both are dummies or neither is, and the revealed fields are equal (dummies
never show their owner). -/
def LooksLike (ad : AssetDefinition) (i j : TransferNoteInput) : Prop :=
  (i.ro.asset_def = AssetDefinition.dummy ∧ j.ro.asset_def = AssetDefinition.dummy ∧
    { viewInput ad i.ro (attrsOf i) with user_address := none } =
      { viewInput ad j.ro (attrsOf j) with user_address := none }) ∨
  (i.ro.asset_def ≠ AssetDefinition.dummy ∧ j.ro.asset_def ≠ AssetDefinition.dummy ∧
    viewInput ad i.ro (attrsOf i) = viewInput ad j.ro (attrsOf j))

/-! ### Transfers that can be generated -/

/-- the nullifier of a record, derived with a user's key pair -/
def nullifierOf (i : TransferNoteInput) : F :=
  i.owner_keypair.nullify i.ro.asset_def.policy.freezer_pk i.acc.uid i.ro.commitment

/-- The conditions on a transfer of `ad` with fee `fee`, of records in the tree with root `root`, for a key for `ni`
inputs, `no` outputs and trees of depth `d`, except for one about the policy. -/
structure Transferable (ni no d : ℕ) (valid_until : U64) (inputs : List TransferNoteInput) (outputs : List RecordOpening)
    (ad : AssetDefinition) (fee : Amount) (root : F) : Prop where
  -- the key
  num_in : inputs.length = ni
  num_out : outputs.length = no
  depth : ∀ i ∈ inputs, i.acc.path.length = d
  -- one asset besides the fee, and dummies
  fee_in : ∃ i0 is, inputs = i0 :: is ∧ i0.ro.asset_def = AssetDefinition.native
  fee_out : ∃ o0 os, outputs = o0 :: os ∧ o0.asset_def = AssetDefinition.native
  asset_in : ∀ i ∈ inputs.tail, i.ro.asset_def = AssetDefinition.dummy ∨ i.ro.asset_def = ad
  asset_out : ∀ o ∈ outputs.tail, o.asset_def = ad
  only_dummies : (∀ i ∈ inputs.tail, i.ro.asset_def = AssetDefinition.dummy) → ad = AssetDefinition.native
  code_dummy : ad.code ≠ dummyCode
  code_native : ad.code = nativeCode → ad = AssetDefinition.native
  -- records that may be spent, each once
  owned : ∀ i ∈ inputs, i.ro.pub_key = i.owner_keypair.pubKey
  unfrozen_in : ∀ i ∈ inputs, i.ro.freeze_flag = .unfrozen
  unfrozen_out : ∀ o ∈ outputs, o.freeze_flag = .unfrozen
  member : ∀ i ∈ inputs, i.ro.asset_def ≠ AssetDefinition.dummy →
    i.acc.root = root ∧ merkleRoot (i.acc.uid.val : F) i.ro.commitment i.acc.path = root
  dummies : ∀ i ∈ inputs, i.ro.asset_def = AssetDefinition.dummy → i.ro.amount = 0
  once : (inputs.map nullifierOf).Nodup
  -- amounts
  balanced : Balanced (inputs.map (·.ro)) outputs fee
  small : total (real (inputs.map (·.ro))) < 2 ^ 127
  -- credentials: present where the policy asks for them, and valid
  creds : ∀ i ∈ inputs, i.ro.asset_def.policy.cred_pk ≠ 0 → ∃ c, i.cred = some c ∧ c.verify valid_until = .ok () ∧
    c.attrs.length = 8

/-- The conditions on a transfer: those above, and a policy with a freezer names a viewer too. -/
structure WellFormed (ni no d : ℕ) (valid_until : U64) (inputs : List TransferNoteInput) (outputs : List RecordOpening)
    (ad : AssetDefinition) (fee : Amount) (root : F) : Prop
    extends Transferable ni no d valid_until inputs outputs ad fee root where
  freezer_has_viewer : ad.policy.freezer_pk ≠ 0 → ad.policy.viewer_pk ≠ 0

/-- Conditions that are written nowhere: the circuit compares times and amounts with differences of limited length, and
reads the map of the policy in its own way. -/
structure Limits (valid_until : U64) (inputs : List TransferNoteInput) (ad : AssetDefinition) : Prop where
  -- the dummy credential of every record without credential policy, so of every fee record, expires at 2^20 - 1
  window : valid_until.val < 2 ^ 20
  -- credentials must not be valid for too long
  fresh : ∀ i ∈ inputs, i.ro.asset_def.policy.cred_pk ≠ 0 → ∀ c, i.cred = some c → c.expiry.val < valid_until.val + 2 ^ 20
  -- no viewer, or below the threshold but not too far, or above it with equal address bits
  memo : ad.policy.viewer_pk = 0 ∨
    (moved inputs ≤ ad.policy.reveal_threshold.val ∧ ad.policy.reveal_threshold.val - moved inputs < 2 ^ 127) ∨
    (ad.policy.reveal_threshold.val < moved inputs ∧ (ad.policy.reveal_map[0] = ad.policy.reveal_map[1] ∨
      ∀ i ∈ inputs.tail, i.ro.asset_def = ad → ptY i.ro.pub_key.address = 0))

end Cap.Spec
