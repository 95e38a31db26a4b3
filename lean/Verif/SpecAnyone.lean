/-
Specification vocabulary for histories of the reference ledger in which anybody may submit notes: the only thing known
about a note is that it was accepted, so that (soundness of the proof system) its author holds an assignment that
satisfies the circuit.
-/
import Verif.SpecLedger
import Verif.Lemmas.Spends

namespace Cap.Spec

open Cap

variable [E : CapEnv] [S : CapExt]

/-- A note and an assignment of values to the variables of its circuit. -/
inductive Opening
  | transfer (n : TransferNote) (w : TransferWit)
  | mint (n : MintNote) (w : MintWit)
  | freeze (n : FreezeNote) (w : FreezeWit)

namespace Opening

/-- the note -/
def note : Opening → TransactionNote
  | transfer n _ => .transfer n
  | mint n _ => .mint n
  | freeze n _ => .freeze n

/-- The assignment satisfies the circuit of the note, for trees of depth `d`. -/
def Satisfied (d : ℕ) : Opening → Prop
  | transfer n w => OpensTransfer n.inputs_nullifiers.length n.output_commitments.length d n w
  | mint n w => OpensMint d n w
  | freeze n w => OpensFreeze n.input_nullifiers.length d n w

/-- what is spent according to the assignment -/
def spends : Opening → List Spend
  | transfer _ w => w.spends
  | mint _ w => w.spends
  | freeze _ w => w.spends

/-- the same without the placeholders -/
def realSpends (o : Opening) : List Spend := o.spends.filter (fun s => s.ro.asset_code ≠ dummyCode)

/-- what is created according to the assignment, in the order of the commitments -/
def creates : Opening → List RecordV
  | transfer _ w => w.outputs
  | mint _ w => [w.chg_ro, w.mint_ro]
  | freeze _ w => w.chg_ro :: w.inputs.map (·.out)

end Opening

/-- What happens to the ledger: a record is granted, or a block is validated and inserted. -/
inductive Step
  | grant (ro : RecordOpening)
  | block (txns : List Opening) (fee_blind : F) (proposer : UserPubKey) (timestamp : U64)

/-- the transactions of a step -/
def Step.txns : Step → List Opening
  | .grant _ => []
  | .block txns _ _ _ => txns

/-- the event the ledger sees: the notes without the assignments -/
def Step.event : Step → Event
  | .grant ro => .grant ro
  | .block txns blind proposer timestamp =>
    .block (txns.map (fun o => ⟨o.note, [], []⟩)) blind proposer timestamp

/-- the ledger sees the same: the same grants, and the same notes in the same blocks -/
def SameNotes : Event → Step → Prop
  | .grant ro, .grant ro' => ro' = ro
  | .block txns blind proposer timestamp, .block os blind' proposer' timestamp' =>
    os.map Opening.note = txns.map (·.note) ∧ blind' = blind ∧ proposer' = proposer ∧ timestamp' = timestamp
  | _, _ => False

/-- every assignment of the history satisfies its circuit -/
def AllSatisfied (d : Fin 256) (h : List Step) : Prop := ∀ e ∈ h, ∀ o ∈ e.txns, o.Satisfied d.val

/-- the records a step creates, in the order in which they enter the tree -/
def Step.creates : Step → List RecordV
  | .grant ro => [ro.toV]
  | .block txns blind proposer _ =>
    txns.flatMap Opening.creates ++
      [(feeRecord proposer (collected (txns.map (fun o => ⟨o.note, [], []⟩))) blind).toV]

/-- all records of a history, in the order of their positions in the tree -/
def everCreated (h : List Step) : List RecordV := h.flatMap Step.creates

/-- all spends of a history -/
def everSpent (h : List Step) : List Spend := h.flatMap (fun e => e.txns.flatMap Opening.realSpends)

/-- the positions of all spends of a history (in an assignment a position is a field element) -/
def spentPositions (h : List Step) : List F := (everSpent h).map (fun s => s.acc.uid)

/-- the records that are created and not spent -/
def neverSpent (h : List Step) : List RecordV :=
  ((everCreated h).zipIdx.filter (fun x => (x.2 : F) ∉ spentPositions h)).map (·.1)

omit S in
/-- what records are worth, of the asset `c` -/
def valueOf (c : F) (l : List RecordV) : ℕ := (l.map (fun r => if r.asset_code = c then r.amount.val else 0)).sum

/-- The hash evaluations behind a list of created records and a list of spends have no collisions among them, and none of
the node and leaf hashes of the paths is zero (the value of an empty subtree). -/
structure NoCollisionV (d : Fin 256) (records : List RecordV) (spends : List Spend) : Prop where
  node : ∀ x ∈ ((List.range (records.length + 1)).flatMap
        (fun k => nodeCalls ((records.map (·.commitment)).take k) d.val 0)),
      ∀ y ∈ spends.flatMap (fun s => pathCalls (E.leafHash s.acc.uid s.ro.commitment) s.acc.path),
        E.nodeHash x.1 x.2.1 x.2.2 = E.nodeHash y.1 y.2.1 y.2.2 → x = y
  node_zero : ∀ y ∈ spends.flatMap (fun s => pathCalls (E.leafHash s.acc.uid s.ro.commitment) s.acc.path),
    E.nodeHash y.1 y.2.1 y.2.2 ≠ 0
  leaf : ∀ x ∈ leafCalls (records.map (·.commitment)), ∀ s ∈ spends,
    E.leafHash x.1 x.2 = E.leafHash s.acc.uid s.ro.commitment → x = (s.acc.uid, s.ro.commitment)
  leaf_zero : ∀ s ∈ spends, E.leafHash s.acc.uid s.ro.commitment ≠ 0
  commit : ∀ r ∈ records, ∀ s ∈ spends,
    r.commitment = s.ro.commitment → (r.scalars, r.blind) = (s.ro.scalars, s.ro.blind)

omit S in
/-- The spend is of the record at the position it names: all committed values agree. -/
def _root_.Cap.Spend.Of (records : List RecordV) (s : Spend) : Prop :=
  ∃ (j : ℕ) (r : RecordV), s.acc.uid = (j : F) ∧ records[j]? = some r ∧ (r.scalars, r.blind) = (s.ro.scalars, s.ro.blind)

/-! ### The checks that are missing

The circuits do not enforce these conditions; C02, C03 and C10 show that each of them fails for some accepted notes. -/

/-- every spent record of a transfer has the asset code of the transfer (compare C02) -/
def Opening.SameCode : Opening → Prop
  | .transfer _ w => ∀ i ∈ w.inputs.tail, i.ro.asset_code ≠ dummyCode → i.ro.asset_code = w.asset_code
  | _ => True

/-- the change of a mint or freeze fits in 128 bits (compare C03) -/
def Opening.ChangeFits : Opening → Prop
  | .transfer _ _ => True
  | .mint _ w => w.chg_ro.amount.val < 2 ^ 128
  | .freeze _ w => w.chg_ro.amount.val < 2 ^ 128

/-- the secret scalars are below the order of the curve, and no record of the neutral address is spent (compare C10) -/
def Opening.Canonical (o : Opening) : Prop := ∀ s ∈ o.realSpends, s.sk.val < E.r ∧ s.ro.owner_addr ≠ neutral

/-- The three missing checks.  The last condition is a limit of the language, not a check: a vector has fewer than 2^64
elements. -/
structure Opening.Checked (o : Opening) : Prop where
  same_code : o.SameCode
  change_fits : o.ChangeFits
  canonical : o.Canonical
  short : o.note.nullifiers.length < 2 ^ 64

end Cap.Spec
