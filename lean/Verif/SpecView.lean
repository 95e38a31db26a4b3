/-
What it means that a viewer is shown a record.
-/
import Verif.Spec

namespace Cap.Spec

variable [E : CapEnv]

/-- The data `v` show the record `r` (of an assignment to the circuit) as far as the map of `ad` says, and nothing else:
a revealed owner, amount or blinding factor is that of the record, the others are missing. -/
structure Shows (ad : AssetDefinition) (v : ViewableData) (r : RecordV) : Prop where
  code : v.asset_code = ad.code
  owner : if ad.policy.reveal_map[0] then ∃ P, v.user_address = some P ∧ E.xy P = r.owner_addr else v.user_address = none
  amount : if ad.policy.reveal_map[2] then ∃ a, v.amount = some a ∧ Amount.toF a = r.amount else v.amount = none
  blind : v.blinding_factor = if ad.policy.reveal_map[3] then some r.blind else none

/-- a spent record is shown with the attributes of the credential that the map selects -/
def ShowsInput (ad : AssetDefinition) (v : ViewableData) (i : InputV) : Prop :=
  Shows ad v i.ro ∧
    v.attributes = List.zipWith (fun b a => if b then some a else none) (ad.policy.reveal_map.toList.drop 4) i.cred.attrs

/-- a created record is shown without attributes -/
def ShowsOutput (ad : AssetDefinition) (v : ViewableData) (r : RecordV) : Prop :=
  Shows ad v r ∧ v.attributes = List.replicate 8 none

/-- the spent records that are shown: not the dummies, and not those of the neutral address if addresses are revealed -/
def shownInputs (ad : AssetDefinition) (l : List InputV) : List InputV :=
  l.filter (fun i => !i.ro.isDummy && !(ad.policy.reveal_map[0] && decide (i.ro.owner_addr = E.xy 0)))

end Cap.Spec
