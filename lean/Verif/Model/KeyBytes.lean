/-
What else `/repo/src/keys.rs` offers on keys: encrypting bytes to a user, comparing and storing freezer key pairs.
-/
import Verif.Model.Wire

namespace Cap

variable [E : CapEnv]

/-- `keys.rs:100-115` `UserPubKey::encrypt`; the randomness drawn is the parameter `rand` -/
def UserPubKey.encrypt (pk : UserPubKey) (rand : ℕ) (message label : List Byte) : Res E.AeadCt :=
  match E.aeadEnc pk.enc_key rand message label with
  | some c => .ok c
  | none => .error .failedPrimitives

/-- `keys.rs:550-554` `eq` of `FreezerKeyPair`: the secrets and the affine points are compared.  (Points are modelled as
group elements, so the projective representatives are not seen.) -/
def FreezerKeyPair.eq (a b : FreezerKeyPair) : Bool := decide (a.sec_key = b.sec_key) && decide (a.pub_key = b.pub_key)

/-- arkworks' elements of the scalar field of the embedded curve: 32 bytes, least significant first; values from r upwards
are refused -/
def frFormat : Format Fr where
  ser x := leBytes 32 x.val
  de bs := do
    let (b, rest) ← readExact 32 bs
    if ofLe b < E.r then .ok ((ofLe b : Fr), rest) else .error .invalidData

variable [S : CapExt] [W : WireEnv]

/-- `keys.rs:485-497` the derived format of `FreezerKeyPair`: its fields one after the other -/
def freezerKeyFormat : Format FreezerKeyPair :=
  (frFormat.pair ptFormat).as (fun k => (k.sec_key, k.pub_key)) (fun x => ⟨x.1, x.2⟩)

/-- `keys.rs:454-463` the derived format of `FreezerPubKey` -/
def freezerPubKeyFormat : Format Pt := ptFormat

end Cap
