/-
Specification vocabulary for the books of a viewer: what the memos of the transactions of a history add up to.
-/
import Verif.SpecHolder
import Verif.SpecPolicy

namespace Cap.Spec

open Cap

variable [E : CapEnv] [S : CapExt]

omit S in
/-- what one line of a memo says about the address `P` -/
def lineFor (P : Pt) (v : ViewableData) : ℕ :=
  if v.user_address = some P then (match v.amount with | some a => a.val | none => 0) else 0

omit S in
/-- what the lines of a memo say about the address `P`, in total -/
def shownFor (P : Pt) (l : List ViewableData) : ℕ := (l.map (lineFor P)).sum

/-- What the address `P` receives in a transaction according to the viewer `k` of the asset `ad`: the viewer opens
the memo of every transfer, and the memo of every mint that publishes this asset definition. -/
def receives (b : Build) (k : ViewerKeyPair) (ad : AssetDefinition) (P : Pt) : TransactionNote → ℕ
  | .transfer n =>
    match k.openTransferViewingMemo b ad n with
    | .ok (_, outs) => shownFor P outs
    | .error _ => 0
  | .mint n =>
    if n.mint_asset_def = ad then
      match k.openMintViewingMemo n with
      | .ok v => lineFor P v
      | .error _ => 0
    else 0
  | .freeze _ => 0

/-- what the address `P` pays in a transaction according to the viewer -/
def pays (b : Build) (k : ViewerKeyPair) (ad : AssetDefinition) (P : Pt) : TransactionNote → ℕ
  | .transfer n =>
    match k.openTransferViewingMemo b ad n with
    | .ok (ins, _) => shownFor P ins
    | .error _ => 0
  | _ => 0

/-- the notes of a history -/
def notesOf (h : List Step) : List TransactionNote := h.flatMap (fun e => e.txns.map Opening.note)

/-- what a step grants the address `P` of the asset `c` -/
def Step.grants (P : Pt) (c : AssetCode) : Step → ℕ
  | .grant ro => amountFor P c ro.toV
  | .block .. => 0

/-- what the address `P` was granted of the asset `c` -/
def grantedTo (P : Pt) (c : AssetCode) (h : List Step) : ℕ := (h.map (Step.grants P c)).sum

/-- The key pair is that of the viewer of the asset, and the policy reveals addresses and amounts. -/
structure Oversees (k : ViewerKeyPair) (ad : AssetDefinition) : Prop where
  viewer : k.pubKey = ad.policy.viewer_pk
  named : ad.policy.viewer_pk ≠ 0
  address : ad.policy.reveal_map[0] = true ∧ ad.policy.reveal_map[1] = true
  amount : ad.policy.reveal_map[2] = true

/-- what a transfer moves, the change of the fee record apart -/
def _root_.Cap.TransferWit.moves (w : TransferWit) : ℕ := (w.outputs.tail.map (·.amount.val)).sum

/-- A transfer of the asset moves nothing or more than the threshold of its policy. -/
def Opening.AboveThreshold (ad : AssetDefinition) : Opening → Prop
  | .transfer _ w => w.asset_code = ad.code → 0 < w.moves → ad.policy.reveal_threshold.val < w.moves
  | _ => True

/-- The receivers of a transfer of the asset are points of the curve.  The circuit does not enforce it (compare C13). -/
def Opening.OnCurve (ad : AssetDefinition) : Opening → Prop
  | .transfer _ w => w.asset_code = ad.code → ∀ o ∈ w.outputs.tail, ∃ P, E.xy P = o.owner_addr
  | _ => True

/-- A transfer whose memo the viewer can open as one of the asset does move something of the asset.  The circuit enforces
nothing about the memo of other transfers (compare C65). -/
def Opening.NotForged (b : Build) (k : ViewerKeyPair) (ad : AssetDefinition) : Opening → Prop
  | .transfer n w => (∃ x, k.openTransferViewingMemo b ad n = .ok x) → w.asset_code = ad.code ∧ 0 < w.moves
  | _ => True

end Cap.Spec
