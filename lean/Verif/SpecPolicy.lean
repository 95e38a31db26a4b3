/-
Specification vocabulary for asset definitions: under which definitions assets came into being.
-/
import Verif.SpecAnyone

namespace Cap.Spec

open Cap

variable [E : CapEnv] [S : CapExt]

/-- the asset definition a mint note publishes -/
def definedBy : TransactionNote → List AssetDefinition
  | .mint n => [n.mint_asset_def]
  | _ => []

/-- the asset definitions of what an event brings into being: of the granted record, or of the minted ones -/
def Event.defines : Event → List AssetDefinition
  | .grant ro => [ro.asset_def]
  | .block txns _ _ _ => txns.flatMap (fun t => definedBy t.note)

/-- all asset definitions under which something was granted or minted -/
def defined (h : List Event) : List AssetDefinition := h.flatMap Event.defines

omit S in
/-- the same keys and the same threshold; the reveal maps may differ -/
structure SameTerms (p q : AssetPolicy) : Prop where
  viewer : p.viewer_pk = q.viewer_pk
  cred : p.cred_pk = q.cred_pk
  freezer : p.freezer_pk = q.freezer_pk
  threshold : p.reveal_threshold = q.reveal_threshold

/-- The reveal maps of the records a freeze spends fit in 12 bits.  The circuit does not enforce it (compare C06). -/
def Opening.MapFits : Opening → Prop
  | .freeze _ w => ∀ i ∈ w.inputs, i.ro.policy.reveal_map.val < 2 ^ 12
  | _ => True

end Cap.Spec
