/-
Specification: a freezer that follows the ledger, and what it is told about records.
-/
import Verif.SpecFreezer

namespace Cap.Spec

open Cap

variable [E : CapEnv] [S : CapExt]

/-- What a viewer reads about the output number `i` of a transaction in the viewing memo. -/
inductive Shown (b : Build) (v : Viewer) : TransactionNote → ℕ → ViewableData → Prop
  | transfer {n ins outs j x} (opened : v.keypair.openTransferViewingMemo b v.asset_def n = .ok (ins, outs))
      (there : outs[j]? = some x) : Shown b v (.transfer n) (j + 1) x
  | mint {n x} (opened : v.keypair.openMintViewingMemo n = .ok x) : Shown b v (.mint n) 1 x

omit S in
/-- The data describe the record, an unfrozen one of the asset `ad`. -/
structure Describes (ad : AssetDefinition) (x : ViewableData) (ro : RecordOpening) : Prop where
  owner : x.user_address = some ro.pub_key.address
  amount : x.amount = some ro.amount
  blind : x.blinding_factor = some ro.blind
  asset : ro.asset_def = ad
  flag : ro.freeze_flag = .unfrozen

omit S in
/-- The same freezer, its maps and sets iterated in another order. -/
structure SameLists (f f' : Freezer) : Prop where
  keypair : f'.keypair = f.keypair
  viewer : f'.viewer = f.viewer
  wallet : SameContents f.wallet f'.wallet
  users : ∀ a, mapGet a f'.users = mapGet a f.users
  shelf : ∀ flag user, (mapGet user (f.shelf flag) = none ∧ mapGet user (f'.shelf flag) = none) ∨
    ∃ l l', mapGet user (f.shelf flag) = some l ∧ mapGet user (f'.shelf flag) = some l' ∧ l.Perm l'
  waiting : ∀ flag n, mapGet n (f'.waiting flag) = mapGet n (f.waiting flag)

/-- A freezer that follows the ledger from the beginning and scans every block, with success.  The history consists of what
happens on the ledger, and of the state of the freezer just before.  Meanwhile the freezer is handed keys of users and
records of its own, and freezes and releases whenever it likes; whether its notes get into a block is open. -/
inductive Follows (d : Fin 256) (b : Build) (k : UserKeyPair) : List (Freezer × Seen) → LedgerState → Freezer → Prop
  | start {fk vk code f} (made : Freezer.generate fk vk k code = .ok f) (pair : fk.pub_key = smulFr fk.sec_key E.gen)
      (set : fk.pub_key ≠ 0) : Follows d b k [] (LedgerState.new d.val) f
  | grant {h s f ro s'} (before : Follows d b k h s f) (ok : s.grant d.val ro = .ok s') :
      Follows d b k (h ++ [(f, .grant ro)]) s' f
  | block {h s f txns blind who time s' f' uid} (before : Follows d b k h s f)
      (valid : validateTxnsBatch d s (txns.map (·.1)) time = .ok ())
      (inserted : s.insertBlock d.val ⟨txns.map (·.1), blind, who⟩ = .ok s') (offset : uid.val = s.leaves.length)
      (scanned : f.scanBlock b (txns.map (·.1)) (txns.map (·.2)) uid = (f', .ok ())) :
      Follows d b k (h ++ [(f, .block txns blind who time)]) s' f'
  | user {h s f} (before : Follows d b k h s f) (key : UserPubKey) : Follows d b k h s (f.addUserKey key)
  | told {h s f ro uid} (before : Follows d b k h s f) (mine : ro.pub_key = k.pubKey) (unfrozen : ro.freeze_flag = .unfrozen)
      (there : s.leaves[uid.val]? = some ro.commitment) (unspent : f.wallet.nullify (ro, uid) ∉ s.nullifiers) :
      Follows d b k h s { f with wallet := f.wallet.addRecordOpening ro uid }
  | froze {h s f rng flag user fee f' note memos sig} (before : Follows d b k h s f)
      (ok : f.freezeUser d s rng flag user fee = .ok (f', note, memos, sig)) : Follows d b k h s f'
  | reorder {h s f f'} (before : Follows d b k h s f) (same : SameLists f f') : Follows d b k h s f'

/-- what happened on the ledger -/
def events (h : List (Freezer × Seen)) : List Seen := h.map (·.2)

/-- Whatever this viewer reads is true: a record that the data about an output describe is the output. -/
def Truthful (b : Build) (v : Viewer) (h : List (Freezer × Seen)) : Prop :=
  ∀ t memos pos, At (events h) t memos pos → ∀ i x ro, Shown b v t i x → Describes v.asset_def x ro →
    t.outputCommitments[i]? = some ro.commitment

/-- Whenever a freeze note in a block spends a record for which the freezer waits, the note creates the record that the
freezer waits for.  (So it is if only the freezer has its key, and if at most its last request is published.) -/
def Matched (h : List (Freezer × Seen)) : Prop :=
  ∀ f txns blind who time, (f, .block txns blind who time) ∈ h → ∀ n memos, (.freeze n, memos) ∈ txns →
    ∀ (j : ℕ) m flag e, n.input_nullifiers[j + 1]? = some m → mapGet m (f.waiting flag) = some e →
      n.output_commitments[j + 1]? = some e.new.commitment

/-- the nullifier is published by a freeze note of the history -/
def Taken (h : List (Freezer × Seen)) (m : F) : Prop :=
  ∃ n memos pos, At (events h) (.freeze n) memos pos ∧ m ∈ n.input_nullifiers

/-- The freezer can deal with the transaction: it can read the memo of a transfer or mint, and everything in it is about
users whose keys it has; a freeze note creates as many records as it spends. -/
def Legible (b : Build) (f : Freezer) : TransactionNote → Prop
  | .transfer n => ∃ ins outs, f.viewer.keypair.openTransferViewingMemo b f.viewer.asset_def n = .ok (ins, outs) ∧
      ∀ x ∈ outs, ∃ ro, Describes f.viewer.asset_def x ro ∧ mapGet ro.pub_key.address f.users = some ro.pub_key
  | .mint n => ∃ x ro, f.viewer.keypair.openMintViewingMemo n = .ok x ∧ Describes f.viewer.asset_def x ro ∧
      mapGet ro.pub_key.address f.users = some ro.pub_key
  | .freeze n => n.input_nullifiers.length ≤ n.output_commitments.length

end Cap.Spec
