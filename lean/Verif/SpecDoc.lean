/-
The three relations of the project's specification (`/repo/cap-specification.pdf`, release of 2022-03-04), transcribed from
sections 3.2.1 to 3.2.4 with the building blocks of section 4.2.5.  Nothing here uses the model of the circuits except its
data types for instances and witnesses (which list the same items as the document) and the two reserved asset codes.

Constants: the document's `ℓ_max = 64` and `ℓ_T = 32` are "e.g."; the code has 127 and 20, used here.  The document's reveal
map has 11 bits `b0 b1 b2 attrmap`; the code's has 12, with one bit for each of the two coordinates of the address, the
first bit being the most significant one.  A 12-bit map encodes a documented one if its first two bits agree.  The document
asks the owner of a dummy record to be a fixed address `upk_dummy`; there is no such address in the code, whose dummies are
owned by random keys on purpose (`structs.rs:996-998`), so that this one condition is left out.
-/
import Verif.Model.Circuit.Transfer
import Verif.Model.Circuit.Mint
import Verif.Model.Circuit.Freeze

namespace Cap.Doc

variable [E : CapEnv]

/-! ### Building blocks (3.2.1, 4.2.5) -/

/-- the symbol `⊥` for a public key: the point `(0, 1)` -/
def bot : PtV := (0, 1)

/-- the symbol `⊥` for a policy -/
def noPolicy : PolicyV := ⟨bot, bot, bot, 0, 0⟩

/-- `range(v, ℓ) ≠ ⊥` -/
def inRange (v : F) (l : ℕ) : Prop := v.val < 2 ^ l

/-- `Com(v, at, upk, tpk, ipk, fpk, 2 · reveal + b_frz, threshold; β)` -/
def com (o : RecordV) : F :=
  E.commit
    [o.amount, o.asset_code, o.owner_addr.1, o.owner_addr.2, o.policy.viewer_pk.1, o.policy.viewer_pk.2,
     o.policy.cred_pk.1, o.policy.cred_pk.2, o.policy.freezer_pk.1, o.policy.freezer_pk.2,
     2 * o.policy.reveal_map + (if o.freeze_flag then 1 else 0), o.policy.reveal_threshold]
    o.blind

/-- `derive_pk(sk) = sk · B` -/
def derivePk (sk : F) : PtV := E.xy (sk.val • E.gen)

/-- `derive_nk(sk₁, pk₂)`: `sk₁` if `pk₂ = ⊥`, else the hash of `sk₁ · pk₂` -/
def deriveNk (sk : F) (pk : PtV) : F :=
  if pk = bot then sk else E.hash3 (E.ecMul sk.val pk).1 (E.ecMul sk.val pk).2 0

/-- `Nullify_nk(uid, arc)` -/
def nullify (nk uid arc : F) : F := E.prf nk [uid, arc]

/-- the value of the root above a node, for a path that starts at the leaf -/
def above : F → List PathNode → F
  | v, [] => v
  | v, ⟨s, t, .left⟩ :: up => above (E.nodeHash v s t) up
  | v, ⟨s, t, .middle⟩ :: up => above (E.nodeHash s v t) up
  | v, ⟨s, t, .right⟩ :: up => above (E.nodeHash s t v) up

/-- `Acc.vfy(rt, π, (uid, arc))` -/
def accVfy (rt : F) (path : List PathNode) (uid arc : F) : Prop := rt = above (E.leafHash uid arc) path

/-- proof of burn, for the user or for the freezer -/
def PoB (rt nl : F) (acc : AccV) (oar : RecordV) (sk : F) (user : Bool) : Prop :=
  let pk₁ := if user then oar.owner_addr else oar.policy.freezer_pk
  let pk₂ := if user then oar.policy.freezer_pk else oar.owner_addr
  pk₁ = derivePk sk ∧
  nl = nullify (deriveNk sk pk₂) acc.uid (com oar) ∧
  (oar.asset_code = dummyCode ∨ accVfy rt acc.path acc.uid (com oar))

/-- `Enc_pk(m; s)`: the point `s · B` and the message plus the keystream of `s · pk` -/
def enc (pk : PtV) (m : List F) (s : F) : MemoV :=
  ⟨E.xy (s.val • E.gen), m.mapIdx (fun k x => x + E.keystream (E.ecMul s.val pk) k)⟩

/-- `Vfy_ac(ipk, cred, m)` -/
def vfyAc (ipk : PtV) (cred : E.Sig) (m : List F) : Prop := E.schnorrVerify ipk m cred = true

/-- `Balance(at*, at, fee, v_in, v_out)` -/
def balance (native at_ fee : F) (vin vout : List F) : Prop :=
  (native ≠ at_ → (∃ i is o os, vin = i :: is ∧ vout = o :: os ∧ i = o + fee ∧ is.sum = os.sum)) ∧
  (native = at_ → vin.sum = vout.sum + fee)

/-! ### Transfers (3.2.3) -/

/-- bit `k` of the reveal map, counted from the most significant of 12 -/
def bit (map : F) (k : ℕ) : Bool := map.val.testBit (11 - k)

/-- `b · v` -/
def times (b : Bool) (v : F) : F := if b then v else 0

/-- the part of the viewer's message about a spent record: `(b̃0 · upk, b1 · v, b2 · β, attrmap ⊙ attrs)` with
`b̃0 = b0 ∨ at = at_dummy`, and default data for the owner of a dummy -/
def inputPart (map : F) (i : InputV) : List F :=
  let dummy := decide (i.ro.asset_code = dummyCode)
  let upk := if dummy then bot else i.ro.owner_addr
  let b0 := bit map 0 || dummy
  [times b0 upk.1, times b0 upk.2, times (bit map 2) i.ro.amount, times (bit map 3) i.ro.blind] ++
    i.cred.attrs.mapIdx (fun k a => times (bit map (4 + k)) a)

/-- the part about a created record: `(b0 · upk, b1 · v, b2 · β)` -/
def outputPart (map : F) (o : RecordV) : List F :=
  [times (bit map 0) o.owner_addr.1, times (bit map 0) o.owner_addr.2, times (bit map 2) o.amount,
   times (bit map 3) o.blind]

/-- the message vector: nothing about the first input and the first output -/
def message (w : TransferWit) : List F :=
  w.asset_code :: (w.inputs.tail.flatMap (inputPart w.policy.reveal_map) ++
    w.outputs.tail.flatMap (outputPart w.policy.reveal_map))

/-- `R_xfr(x, w)` -/
structure Transfer (w : TransferWit) (x : TransferPub) : Prop where
  -- n and m are at least 1
  some_in : w.inputs ≠ []
  some_out : w.outputs ≠ []
  -- asset type and policy consistency
  first_in : ∀ i ∈ w.inputs.head?, i.ro.asset_code = x.native_asset_code ∧ i.ro.policy = noPolicy
  first_out : ∀ o ∈ w.outputs.head?, o.asset_code = x.native_asset_code ∧ o.policy = noPolicy
  other_in : ∀ i ∈ w.inputs.tail,
    i.ro.asset_code = dummyCode ∨ (i.ro.asset_code = w.asset_code ∧ i.ro.policy = w.policy)
  other_out : ∀ o ∈ w.outputs.tail, o.asset_code = w.asset_code ∧ o.policy = w.policy
  dummy_in : ∀ i ∈ w.inputs.tail, i.ro.asset_code ≠ dummyCode ∨ (i.ro.amount = 0 ∧ i.ro.policy = noPolicy)
  -- no record is frozen
  unfrozen_in : ∀ i ∈ w.inputs, i.ro.freeze_flag = false
  unfrozen_out : ∀ o ∈ w.outputs, o.freeze_flag = false
  -- inputs
  burn : List.Forall₂ (fun i nl => PoB x.root nl i.acc i.ro i.addr_secret true) w.inputs x.nullifiers
  unexpired : ∀ i ∈ w.inputs, x.valid_until.val ≤ i.cred.expiry.val ∧ i.cred.expiry.val < 2 ^ 20
  cred : ∀ i ∈ w.inputs, i.ro.policy.cred_pk = bot ∨
    (i.cred.creator_pk = i.ro.policy.cred_pk ∧ i.cred.user_addr = i.ro.owner_addr ∧
      vfyAc i.ro.policy.cred_pk i.cred.cred ([i.cred.expiry, i.ro.owner_addr.1, i.ro.owner_addr.2] ++ i.cred.attrs))
  -- outputs
  created : List.Forall₂ (fun o arc => arc = com o ∧ inRange o.amount 127) w.outputs x.commitments
  balance : balance x.native_asset_code w.asset_code x.fee (w.inputs.map (·.ro.amount)) (w.outputs.map (·.amount))
  -- the reveal map, and the viewer memo
  map_range : inRange w.policy.reveal_map 12
  map_even : bit w.policy.reveal_map 0 = bit w.policy.reveal_map 1
  memo : w.policy.viewer_pk = bot ∨
    inRange (w.policy.reveal_threshold - (w.inputs.tail.map (·.ro.amount)).sum) 127 ∨
    x.memo = enc w.policy.viewer_pk (message w) w.enc_rand

/-! ### Asset issuance (3.2.2) -/

/-- `R_mint(x, w)`.  The asset type is derived in two steps in the code: `PRF_s(aux)` is public too, and the type is its
hash, computed by the validator. -/
structure Mint (w : MintWit) (x : MintPub) : Prop where
  minted : x.mint_rc = com w.mint_ro
  change : x.chg_rc = com w.chg_ro
  -- the published amount, type and policy are those of the record; the other two records are native
  opening : w.mint_ro.amount = x.mint_amount ∧ w.mint_ro.asset_code = x.mint_ac ∧ w.mint_ro.policy = x.mint_policy
  fee_native : w.fee_ro.asset_code = x.native_asset_code ∧ w.fee_ro.policy = noPolicy
  chg_native : w.chg_ro.asset_code = x.native_asset_code ∧ w.chg_ro.policy = noPolicy
  same_owner : w.chg_ro.owner_addr = w.fee_ro.owner_addr
  seed : x.mint_internal_ac = E.prf w.ac_seed [w.ac_digest]
  type : x.mint_ac = domesticFromInternal x.mint_internal_ac
  balance : w.fee_ro.amount = x.fee + w.chg_ro.amount
  burn : PoB x.root x.input_nullifier w.acc w.fee_ro w.creator_sk true
  mint_range : inRange w.mint_ro.amount 127
  chg_range : inRange w.chg_ro.amount 127
  unfrozen : w.mint_ro.freeze_flag = false ∧ w.fee_ro.freeze_flag = false ∧ w.chg_ro.freeze_flag = false
  -- what the memo needs to contain is the owner and the blinding factor (Remark 2)
  memo : w.mint_ro.policy.viewer_pk = bot ∨ x.memo = enc w.mint_ro.policy.viewer_pk
    [w.mint_ro.owner_addr.1, w.mint_ro.owner_addr.2, w.mint_ro.blind] w.enc_rand

/-! ### Freezing and unfreezing (3.2.4) -/

/-- `R_frz(x, w)` -/
structure Freeze (w : FreezeWit) (x : FreezePub) : Prop where
  -- the native records
  fee_native : w.fee_ro.asset_code = x.native_asset_code ∧ w.fee_ro.policy = noPolicy
  chg_native : w.chg_ro.asset_code = x.native_asset_code ∧ w.chg_ro.policy = noPolicy
  unfrozen : w.fee_ro.freeze_flag = false ∧ w.chg_ro.freeze_flag = false
  balance : w.fee_ro.amount = w.chg_ro.amount + x.fee
  fee_burn : PoB x.root x.fee_nullifier w.fee_acc w.fee_ro w.fee_sk true
  -- the others
  flipped : ∀ i ∈ w.inputs, i.out.freeze_flag = !i.ro.freeze_flag
  kept : ∀ i ∈ w.inputs, i.ro.amount = i.out.amount ∧ i.ro.asset_code = i.out.asset_code ∧
    i.ro.owner_addr = i.out.owner_addr ∧ i.ro.policy = i.out.policy
  freezer : ∀ i ∈ w.inputs, i.ro.policy.freezer_pk ≠ bot ∨ i.ro.asset_code = dummyCode
  burn : List.Forall₂ (fun i nl => PoB x.root nl i.acc i.ro i.sk false) w.inputs x.nullifiers
  -- the created records
  change : x.chg_commitment = com w.chg_ro
  created : List.Forall₂ (fun i arc => arc = com i.out) w.inputs x.commitments

/-! ### What the relations are for -/

/-- the amount of type `c` in a list of records, as a natural number -/
def held (c : F) (l : List RecordV) : ℕ := ((l.filter (fun o => o.asset_code = c)).map (fun o => o.amount.val)).sum

/-! ### Differences -/

/-- What the document requires of a transfer and the circuit does not. -/
structure TransferGap (w : TransferWit) (x : TransferPub) : Prop where
  -- a spent record has the type of the transfer
  code : ∀ i ∈ w.inputs.tail, i.ro.asset_code = dummyCode ∨ i.ro.asset_code = w.asset_code
  -- map and threshold of a dummy's policy are zero (the circuit only tests their sum)
  dummy : ∀ i ∈ w.inputs.tail, i.ro.asset_code = dummyCode → i.ro.policy.reveal_map = 0
  -- the credential is by the policy's issuer for the record's owner
  cred : ∀ i ∈ w.inputs, i.ro.policy.cred_pk ≠ bot →
    i.cred.creator_pk = i.ro.policy.cred_pk ∧ i.cred.user_addr = i.ro.owner_addr
  -- times are compared as numbers
  time : ∀ i ∈ w.inputs, x.valid_until.val ≤ i.cred.expiry.val ∧ i.cred.expiry.val < 2 ^ 20
  -- the address is revealed as a whole or not at all
  map : bit w.policy.reveal_map 0 = bit w.policy.reveal_map 1

/-- What the document requires of a mint and the circuit does not; the second part is left to the validator. -/
structure MintGap (w : MintWit) (x : MintPub) : Prop where
  change : inRange w.chg_ro.amount 127
  type : x.mint_ac = domesticFromInternal x.mint_internal_ac

/-- How a transfer has to be represented in the circuit: scalars of the size the gadgets decompose, eight attributes, and as
many ciphertext elements as the message has. -/
structure TransferEncoded (w : TransferWit) (x : TransferPub) : Prop where
  keys : ∀ i ∈ w.inputs, okScalar i.addr_secret
  rand : okScalar w.enc_rand
  attrs : ∀ i ∈ w.inputs, i.cred.attrs.length = 8
  memo : x.memo.data.length = (message w).length

structure MintEncoded (w : MintWit) (x : MintPub) : Prop where
  key : okScalar w.creator_sk
  rand : okScalar w.enc_rand
  memo : x.memo.data.length = 3

structure FreezeEncoded (w : FreezeWit) : Prop where
  key : okScalar w.fee_sk
  keys : ∀ i ∈ w.inputs, okScalar i.sk

end Cap.Doc
