/-
Specification vocabulary for several wallets that follow the same reference ledger.
-/
import Verif.SpecScan

namespace Cap.Spec

open Cap

variable [E : CapEnv] [S : CapExt]

/-- One of the wallets: the key pair of its owner, what it has seen, and its contents. -/
structure Follower where
  key : UserKeyPair
  seen : List Seen
  wallet : Wallet

/-- The wallet follows the ledger with history `h` and state `s`.  The memos it is shown, and the records it is handed,
have nothing to do with those of other wallets. -/
structure Follower.Follows (d : Fin 256) (b : Build) (h : List Step) (s : LedgerState) (f : Follower) : Prop where
  world : World d b f.key f.seen s f.wallet
  same : List.Forall₂ SameNotes (ledgerEvents f.seen) h

/-- No hash collisions between the records this wallet gets to know and those of the history, and no record with the dummy
asset code among the former.  A hypothesis about the values of this history only. -/
structure Follower.Clear (h : List Step) (f : Follower) : Prop where
  unmixed : Unmixed f.key f.seen (h.flatMap (fun e => e.txns.flatMap Opening.spends))
  commit : ∀ x, Received f.key f.seen x → ∀ r ∈ everCreated h, r.commitment = x.1.commitment →
    (r.scalars, r.blind) = (x.1.scalars, x.1.blind)
  no_dummy : ∀ x, Received f.key f.seen x → x.1.asset_def.code ≠ dummyCode

/-- The wallet has been given what it needs to hold this record at this position: it was handed the record, or a memo it can
decrypt, or it waited for this change and for no other record with the same commitment, which is nowhere else in the tree.
The record is not frozen. -/
inductive Follower.Knows (leaves : List F) (f : Follower) : RecordOpening × U64 → Prop
  | told {ro uid} (mem : .told ro uid ∈ f.seen) : Follower.Knows leaves f (ro, uid)
  | memo {t memos pos j rc c ro uid} (at_ : At f.seen t memos pos) (output : t.outputCommitments[j + 1]? = some rc)
      (memo : memos[j]? = some c) (opens : ReceiverMemo.decrypt c f.key rc [] = .ok ro) (unfrozen : ro.freeze_flag = .unfrozen)
      (position : uid.val = pos + 1 + j) : Follower.Knows leaves f (ro, uid)
  | change {before after txns blind who time t chg uid} (waits : f.seen = before ++ .expecting chg :: after)
      (no_twin : ∀ chg', .expecting chg' ∈ f.seen → chg'.commitment = chg.commitment → chg' = chg)
      (later : .block txns blind who time ∈ after) (mem : t ∈ txns)
      (output : t.1.outputCommitments[0]? = some chg.commitment)
      (only : ∀ i, leaves[i]? = some chg.commitment → i = uid.val) : Follower.Knows leaves f (chg, uid)

open Classical in
/-- the unspent records of a history that none of the wallets holds -/
noncomputable def heldByNone (h : List Step) (fs : List Follower) : List RecordV :=
  ((everCreated h).zipIdx.filter (fun x => (x.2 : F) ∉ spentPositions h ∧
    ¬ ∃ f ∈ fs, ∃ y, f.wallet.Holds y ∧ y.2.val = x.2)).map (·.1)

end Cap.Spec
