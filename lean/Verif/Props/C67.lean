/-
C67: a freezer that follows the ledger knows the records of its asset, and where they are.

status: partial
note: Follows: the freezer of the reference tests scans every block (successfully) from the beginning, is handed keys of users and records of its own, and freezes and releases at will. C67_wallet, C67_lists: its wallet is a wallet as in C59, and what it lists is of its asset, of that user, in that state. C67_there_partial: what it lists is the leaf at the recorded position, if what it reads is true (C67_truthful: if all transfers move its asset and all mints are of its asset) and if freeze notes for its records create what it waits for (C67_matched_next: if it makes one request at a time). C67_shown, C67_stays, C67_confirmed, C67_moved: whatever it reads about is listed, what is listed stays listed until a freeze note takes it, and confirmed records change lists. C67_accepted_partial: requests are accepted if the listed records are unspent. C67_scans_partial: a block is scanned without error if every transaction is legible (C67_legible_transfer, C67_legible_mint: transfers and mints of the asset for known users); C67_reads: and only if every transfer decrypts to something that begins with the code of the asset. Partial because of these conditions; C67_blind_false (a transfer of another asset of the same viewer makes the scan of the block fail), C67_stranger_false (so does a mint for an unknown user), C67_foreign_false (a mint of another asset of the same viewer is listed as one of the freezer's asset), C67_stale_false (a record that its owner has spent stays on the list, and from then on no request for this owner is accepted) and C67_twice_false (after two requests in a row the freezer records a wrong opening for the accepted one) show that they are needed.
-/
import Verif.Lemmas.KeeperScan
import Verif.Props.C14
import Verif.Props.C65
import Verif.Props.C64
import Verif.Props.C66

namespace Cap

open Spec

variable [E : CapEnv] [S : CapExt] {d : Fin 256} {b : Build} {k : UserKeyPair} {h : List (Freezer × Seen)} {s : LedgerState}
  {f : Freezer}

/-! ### What the freezer knows -/

/-- **Its wallet** follows the same ledger, as in C59. -/
theorem C67_wallet (fol : Follows d b k h s f) : ∃ h', World d b k h' s f.wallet ∧
    ∀ t memos pos, At h' t memos pos ↔ At (events h) t memos pos := by
  obtain ⟨h', h1, -, h2⟩ := (followsOk fol).world
  exact ⟨h', h1, h2⟩

/-- **What it lists** for a user is of its asset, of that user, and in the right state; and it has the key of the asset. -/
theorem C67_lists (fol : Follows d b k h s f) : Holder f ∧ ∀ flag user x, f.Lists flag user x →
    x.1.asset_def = f.viewer.asset_def ∧ x.1.freeze_flag = flag ∧ x.1.pub_key.address = user :=
  ⟨(followsOk fol).holder, (followsOk fol).lists⟩

/-- **It is on the ledger.**  If what the freezer reads is true, and if the freeze notes for its records create what it waits
for, then every listed record is the leaf at the recorded position. -/
theorem C67_there_partial (fol : Follows d b k h s f) (truthful : Truthful b f.viewer h) (matched : Matched h)
    {flag : FreezeFlag} {user : Pt} {x : RecordOpening × U64} (listed : f.Lists flag user x) :
    s.leaves[x.2.val]? = some x.1.commitment := ((followsOk fol).true_ truthful matched).1 _ _ _ listed

/-- **Every output it reads about is listed**, at its position, until a freeze note takes it. -/
theorem C67_shown (fol : Follows d b k h s f) {t : TransactionNote} {memos : List E.AeadCt} {pos i : ℕ} {rc : F}
    {data : ViewableData} (there : At (events h) t memos pos) (output : t.outputCommitments[i]? = some rc)
    (shown : Shown b f.viewer t i data) : ∃ ro, ∃ uid : U64, Describes f.viewer.asset_def data ro ∧ uid.val = pos + i ∧
      (f.Lists .unfrozen ro.pub_key.address (ro, uid) ∨ Taken h (f.nullifier (ro, uid))) :=
  (followsOk fol).shown t memos pos there i data rc shown output

/-- **What was listed** at some time is still listed, unless a freeze note took it. -/
theorem C67_stays (fol : Follows d b k h s f) {f0 : Freezer} {e : Seen} (then_ : (f0, e) ∈ h) {flag : FreezeFlag} {user : Pt}
    {x : RecordOpening × U64} (listed : f0.Lists flag user x) : f.Lists flag user x ∨ Taken h (f.nullifier x) :=
  (followsOk fol).kept f0 e then_ flag user x listed

/-- **A confirmed request.**  When a freeze note gets into a block and the freezer waits for its input number `j + 1`, the
record that replaces the input is on the other list, at the position of the output (until a freeze note takes it). -/
theorem C67_confirmed (fol : Follows d b k h s f) {f0 : Freezer} {txns : List (TransactionNote × List E.AeadCt)} {blind : F}
    {who : UserPubKey} {time : U64} (then_ : (f0, .block txns blind who time) ∈ h) {n : FreezeNote} {memos : List E.AeadCt}
    (mem : (.freeze n, memos) ∈ txns) {j : ℕ} {m rc : F} {flag : FreezeFlag} {e : Pending}
    (input : n.input_nullifiers[j + 1]? = some m) (waits : mapGet m (f0.waiting flag) = some e)
    (output : n.output_commitments[j + 1]? = some rc) : ∃ pos, ∃ uid : U64, At (events h) (.freeze n) memos pos ∧
      uid.val = pos + 1 + j ∧ (f.Lists flag.flip e.owner (e.new, uid) ∨ Taken h (f.nullifier (e.new, uid))) :=
  (followsOk fol).confirmed f0 txns blind who time then_ n memos mem j m flag e rc input waits output

/-- **And the old record is gone** from its list, for ever. -/
theorem C67_moved (fol : Follows d b k h s f) (truthful : Truthful b f.viewer h) (matched : Matched h) {f0 : Freezer}
    {txns : List (TransactionNote × List E.AeadCt)} {blind : F} {who : UserPubKey} {time : U64}
    (then_ : (f0, .block txns blind who time) ∈ h) {n : FreezeNote} {memos : List E.AeadCt} (mem : (.freeze n, memos) ∈ txns)
    {j : ℕ} {m : F} {flag : FreezeFlag} {e : Pending} (input : n.input_nullifiers[j + 1]? = some m)
    (waits : mapGet m (f0.waiting flag) = some e) : m = f.nullifier e.old ∧ ¬ f.Lists flag e.owner e.old := by
  refine ⟨?_, (((followsOk fol).true_ truthful matched).2.2 f0 txns blind who time then_ n memos mem j m flag e input waits).1⟩
  obtain ⟨before, after, rfl⟩ := List.append_of_mem then_
  have hk := ((followsOk fol).same _ _ then_).2
  rw [nullifier_congr hk.symm]
  clear hk truthful matched
  have : ∀ {h : List (Freezer × Seen)} {s f}, Follows d b k h s f → ∀ f0 e, (f0, e) ∈ h → ∃ h' s', Follows d b k h' s' f0 := by
    intro h s f fol
    induction fol with
    | start => exact fun _ _ h => (nomatch h)
    | grant before ok ih =>
      intro f0 e he
      rcases List.mem_append.1 he with he | he
      · exact ih _ _ he
      · cases (List.mem_singleton.1 he)
        exact ⟨_, _, before⟩
    | block before _ _ _ _ ih =>
      intro f0 e he
      rcases List.mem_append.1 he with he | he
      · exact ih _ _ he
      · cases (List.mem_singleton.1 he)
        exact ⟨_, _, before⟩
    | user before key ih => exact ih
    | told before _ _ _ _ ih => exact ih
    | froze before ok ih => exact ih
    | reorder before same ih => exact ih
  obtain ⟨h', s', fol0⟩ := this fol _ _ then_
  exact ((followsOk fol0).waits _ _ _ waits).nullifier

/-- **Requests are accepted**, if the listed records are not spent.  (The other conditions are those of C64.) -/
theorem C67_accepted_partial (complete : SnarkComplete) (batch : SnarkBatch) (fol : Follows d b k h s f)
    (truthful : Truthful b f.viewer h) (matched : Matched h) {flag : FreezeFlag} {user : Pt}
    {records : List (RecordOpening × U64)} (known : mapGet user (f.shelf flag) = some records) (real : user ≠ 0)
    (unspent : ∀ x ∈ records, f.nullifier x ∉ s.nullifiers) {h' : List Seen} (wallet : World d b k h' s f.wallet)
    (apart : Apart k h') (rng : FreezerRand) {fee : Amount}
    (genuine : ∀ x, f.wallet.Holds x → x.1.asset_def.code = nativeCode → x.1.asset_def = AssetDefinition.native)
    (coin : ∃ x, f.wallet.Holds x ∧ x.1.asset_def.code = nativeCode ∧ fee ≤ x.1.amount)
    (owners : (dummyFirst rng flag).pub_key.address ≠ 0 ∧ (dummyLast rng flag).pub_key.address ≠ 0)
    (once : ∀ coin, f.wallet.Holds coin → coin.1.asset_def.code = nativeCode →
      (ownNullifier k coin :: dummyNull (dummyFirst rng flag) :: (records.map f.nullifier ++ [dummyNull (dummyLast rng flag)])).Nodup)
    (unused : dummyNull (dummyFirst rng flag) ∉ s.nullifiers ∧ dummyNull (dummyLast rng flag) ∉ s.nullifiers)
    (keys : ∃ keys, freezePreprocess (records.length + 3) d = .ok keys)
    (encrypts : ∀ i, ∀ o ∈ (dummiesAfter rng flag records.length).1 ::
      (records.mapIdx (flipped rng) ++ [(dummiesAfter rng flag records.length).2]),
      ∃ c, ReceiverMemo.fromRo (rng.memos i) o [] = .ok c) :
    ∃ f' note memos sig, f.freezeUser d s rng flag user fee = .ok (f', note, memos, sig) ∧ note.aux_info.fee = fee ∧
      TransactionNote.verifyReceiverMemosSignature (.freeze note) memos sig = .ok () ∧
      ∀ time : U64, validateTxnsBatch d s [.freeze note] time = .ok () := by
  obtain ⟨holder, lists⟩ := C67_lists fol
  refine C64_accepted_partial complete batch wallet apart holder known (fun x hx => ?_) rng genuine coin owners once unused
    keys encrypts
  obtain ⟨l1, l2, l3⟩ := lists flag user x ⟨_, known, hx⟩
  exact ⟨l1, l2, by rw [l3]; exact real, C67_there_partial fol truthful matched ⟨_, known, hx⟩, unspent x hx⟩

/-! ### When what the freezer reads is true -/

omit S in
theorem described_commitment {ad : AssetDefinition} {x : ViewableData} {ro : RecordOpening} (de : Describes ad x ro) {r : RecordV}
    (owner : ∀ P, x.user_address = some P → E.xy P = r.owner_addr) (amount : ∀ a, x.amount = some a → Amount.toF a = r.amount)
    (blind : ∀ y, x.blinding_factor = some y → y = r.blind) (code : r.asset_code = ad.code) (policy : r.policy = ad.policy.toV)
    (flag : r.freeze_flag = false) : ro.commitment = r.commitment := by
  have : ro.toV = r := by
    obtain ⟨d1, d2, d3, d4, d5⟩ := de
    have e1 := owner _ d1
    have e2 := amount _ d2
    have e3 := blind _ d3
    obtain ⟨ra, rc, ro', rp, rf, rb⟩ := r
    obtain ⟨oa, oad, opk, ofl, ob⟩ := ro
    dsimp only at e1 e2 e3 code policy flag d4 d5
    subst d4 d5
    unfold RecordOpening.toV
    dsimp only
    rw [← e1, ← e2, ← e3, code, policy, flag]
    rfl
  rw [← this, RecordOpening.toV_commitment]

/-- **Transfers** of the freezer's asset above the threshold: what the viewer reads is true. -/
theorem C67_transfer {a c d : ℕ} {n : TransferNote} {w : TransferWit} (opens : OpensTransfer a c d n w) (hc : c < 2 ^ 64)
    {v : Viewer} (code : w.asset_code = v.asset_def.code) (policy : w.policy = v.asset_def.policy.toV)
    (foreign : v.asset_def.code ≠ nativeCode) (named : v.asset_def.policy.viewer_pk ≠ 0)
    (agree : v.asset_def.policy.reveal_map[0] = v.asset_def.policy.reveal_map[1])
    (over : v.asset_def.policy.reveal_threshold.val < (w.outputs.tail.map (·.amount.val)).sum) {i : ℕ} {x : ViewableData}
    {ro : RecordOpening} (shown : Shown b v (.transfer n) i x) (describes : Describes v.asset_def x ro) :
    (TransactionNote.transfer n).outputCommitments[i]? = some ro.commitment := by
  cases shown with
  | transfer opened there =>
    rename_i ins outs j
    obtain ⟨s1, -⟩ := C65_partial b opens hc code policy foreign named agree over opened
    obtain ⟨i0, is, o0, os, nl, nls, cm, cs, hp⟩ := opens.sat.parts opens.shape
    have hcs : n.output_commitments = cm :: cs := hp.commitments
    rw [hp.outputs, List.tail_cons] at s1
    have hjl : j < os.length := by rw [← s1.length_eq]; exact (List.getElem?_eq_some_iff.1 there).1
    have hjc : j < cs.length := by rw [← hp.outs.length_eq]; exact hjl
    have hs : ShowsOutput v.asset_def x os[j] := by
      obtain ⟨_, e1⟩ := List.getElem?_eq_some_iff.1 there
      rw [← e1]
      exact (List.forall₂_iff_get.1 s1).2 j _ _
    have hok : OutputOk w n.pub.toV false os[j] cs[j] := (List.forall₂_iff_get.1 hp.outs).2 j _ _
    have hc1 := hok.2.1
    simp only [Bool.false_eq_true, if_false] at hc1
    have hpol := (hp.map_in opens.sat).2.2.2 _ (List.getElem_mem hjl)
    have e := described_commitment describes (r := os[j])
      (fun P hP => by
        have := hs.1.owner
        split at this
        · obtain ⟨P', h1, h2⟩ := this
          rw [hP] at h1
          cases h1
          exact h2
        · rw [hP] at this
          cases this)
      (fun A hA => by
        have := hs.1.amount
        split at this
        · obtain ⟨A', h1, h2⟩ := this
          rw [hA] at h1
          cases h1
          exact h2
        · rw [hA] at this
          cases this)
      (fun y hy => by
        have := hs.1.blind
        rw [hy] at this
        split at this
        · cases this; rfl
        · cases this)
      (hc1.1.trans code) (hpol.trans policy) hok.1
    show n.output_commitments[j + 1]? = _
    rw [hcs, List.getElem?_cons_succ, List.getElem?_eq_getElem hjc, e]
    exact congrArg some hok.2.2.1.symm

/-- **Mints** of the freezer's asset: what the viewer reads is true. -/
theorem C67_mint {d : ℕ} {n : MintNote} {w : MintWit} (opens : OpensMint d n w) {v : Viewer}
    (asset : n.mint_asset_def = v.asset_def) (viewer : v.keypair.pubKey = v.asset_def.policy.viewer_pk)
    (named : v.asset_def.policy.viewer_pk ≠ 0) {i : ℕ} {x : ViewableData} {ro : RecordOpening}
    (shown : Shown b v (.mint n) i x) (describes : Describes v.asset_def x ro) :
    (TransactionNote.mint n).outputCommitments[i]? = some ro.commitment := by
  cases shown with
  | mint opened =>
    rw [← asset] at viewer named
    obtain ⟨-, c1, -, c2, c3, c4⟩ := C65_mint_opened opens viewer named opened
    obtain ⟨-, e1, e2, e3, e4, e5, -⟩ := C45_opened opens
    have e := described_commitment describes c1
      (fun A hA => by
        rw [c2] at hA
        split at hA
        · cases hA; exact c3
        · cases hA)
      (fun y hy => by
        rw [c4] at hy
        split at hy
        · cases hy; rfl
        · cases hy)
      (e3.trans (by rw [asset])) (e4.trans (by rw [asset])) e5
    show some n.mint_comm = _
    rw [e, e1]

omit S in
/-- the asset of a freezer: the viewer is set, everything about an opening is revealed, from the first unit on -/
structure Sees (v : Viewer) : Prop where
  viewer : v.keypair.pubKey = v.asset_def.policy.viewer_pk
  named : v.asset_def.policy.viewer_pk ≠ 0
  foreign : v.asset_def.code ≠ nativeCode
  real : v.asset_def.code ≠ dummyCode
  owner : v.asset_def.policy.reveal_map[0] = true ∧ v.asset_def.policy.reveal_map[1] = true
  amount : v.asset_def.policy.reveal_map[2] = true
  blind : v.asset_def.policy.reveal_map[3] = true
  threshold : v.asset_def.policy.reveal_threshold = 0

theorem generate_sees {k : UserKeyPair} {fk : FreezerKeyPair} {vk : ViewerKeyPair} {code : AssetCode} {f : Freezer}
    (made : Freezer.generate fk vk k code = .ok f) : Sees f.viewer := by
  unfold Freezer.generate AssetPolicy.revealRecordOpening at made
  simp only [bind_ok_iff] at made
  obtain ⟨policy, h1, ad, h2, h3⟩ := made
  cases h3
  have h1 := Wallet.unwrap_ok h1
  have h2 := Wallet.unwrap_ok h2
  simp only [bind_ok_iff] at h1
  obtain ⟨p1, h3, p2, h4, h5⟩ := h1
  unfold AssetPolicy.revealUserAddress at h3
  unfold AssetPolicy.revealAmount at h4
  unfold AssetPolicy.revealBlindingFactor at h5
  unfold AssetDefinition.new at h2
  split at h2
  · cases h2
  · next hc =>
    cases h2
    rw [not_or] at hc
    split at h3
    · cases h3
    · next hv =>
      cases h3
      split at h4
      · cases h4
      · cases h4
        split at h5
        · cases h5
        · cases h5
          refine ⟨rfl, ?_, hc.1, hc.2, ⟨rfl, rfl⟩, rfl, rfl, rfl⟩
          intro he
          refine hv ?_
          unfold AssetPolicy.isViewerPubKeySet
          exact congrArg (!·) (decide_eq_false (not_not.2 he))

theorem follows_sees (fol : Follows d b k h s f) : Sees f.viewer := by
  induction fol with
  | start made => exact generate_sees made
  | grant before ok ih => exact ih
  | block before valid inserted offset scanned ih =>
    rw [(Freezer.scanBlock_ok scanned).1.viewer]
    exact ih
  | user before key ih => exact ih
  | told before _ _ _ _ ih => exact ih
  | froze before ok ih =>
    obtain ⟨h', w1, -⟩ := C67_wallet before
    obtain ⟨-, -, -, -, -, -, -, ⟨-, s2, -⟩, -⟩ := C64_did w1 ok
    rw [s2]
    exact ih
  | reorder before same ih =>
    rw [same.viewer]
    exact ih

/-- **So** if every transfer of the history moves the freezer's asset, and more than nothing of it, and every mint is one of
it, then what the freezer reads is true. -/
theorem C67_truthful (fol : Follows d b k h s f)
    (transfers : ∀ n memos pos, At (events h) (.transfer n) memos pos → ∃ a c d w, OpensTransfer a c d n w ∧ c < 2 ^ 64 ∧
      w.asset_code = f.viewer.asset_def.code ∧ w.policy = f.viewer.asset_def.policy.toV ∧
      0 < (w.outputs.tail.map (·.amount.val)).sum)
    (mints : ∀ n memos pos, At (events h) (.mint n) memos pos → n.mint_asset_def = f.viewer.asset_def ∧
      ∃ d w, OpensMint d n w) : Truthful b f.viewer h := by
  have sees := follows_sees fol
  intro t memos pos there i x ro shown describes
  cases t with
  | transfer n =>
    obtain ⟨a, c, d, w, o, hc, e1, e2, e3⟩ := transfers n memos pos there
    exact C67_transfer o hc e1 e2 sees.foreign sees.named (sees.owner.1.trans sees.owner.2.symm)
      (by rw [sees.threshold]; exact e3) shown describes
  | mint n =>
    obtain ⟨e1, d, w, o⟩ := mints n memos pos there
    exact C67_mint o e1 sees.viewer sees.named shown describes
  | freeze n => cases shown

/-! ### When the freeze notes create what the freezer waits for -/

/-- **Blocks without freeze notes** change nothing. -/
theorem C67_matched_quiet (matched : Matched h) {txns : List (TransactionNote × List E.AeadCt)} {blind : F} {who : UserPubKey}
    {time : U64} (none : ∀ n memos, (.freeze n, memos) ∉ txns) : Matched (h ++ [(f, .block txns blind who time)]) := by
  intro f0 txns' blind' who' time' hm n memos hn
  rcases List.mem_append.1 hm with hm | hm
  · exact matched _ _ _ _ _ hm n memos hn
  · cases List.mem_singleton.1 hm
    exact absurd hn (none n memos)

/-- **One request at a time**: the freezer waits for nothing, makes a request, and the next block has no freeze note but this
one. -/
theorem C67_matched_next (fol : Follows d b k h s f) (matched : Matched h) (idle : ∀ flag m, mapGet m (f.waiting flag) = none)
    {rng : FreezerRand} {flag : FreezeFlag} {user : Pt} {fee : Amount} {f1 : Freezer} {note : FreezeNote} {memos : List E.AeadCt}
    {sig : E.Sig} (request : f.freezeUser d s rng flag user fee = .ok (f1, note, memos, sig))
    {txns : List (TransactionNote × List E.AeadCt)} {blind : F} {who : UserPubKey} {time : U64}
    (valid : validateTxnsBatch d s (txns.map (·.1)) time = .ok ())
    (only : ∀ n memos, (.freeze n, memos) ∈ txns → n = note) : Matched (h ++ [(f1, .block txns blind who time)]) := by
  intro f0 txns' blind' who' time' hm n memos' hn j m flag' e hj he
  rcases List.mem_append.1 hm with hm | hm
  · exact matched _ _ _ _ _ hm n memos' hn j m flag' e hj he
  · cases List.mem_singleton.1 hm
    obtain rfl := only n memos' hn
    obtain ⟨h', w1, -⟩ := C67_wallet fol
    obtain ⟨records, c, info, chg, pk, vk, sk, outs, pending, sp⟩ := Freezer.freezeUser_ok.1 request
    have fr := sp.froze w1
    have hflag : flag' = flag := by
      by_contra hne
      have : f1.waiting flag' = f.waiting flag' := by
        rw [sp.freezer]
        cases flag <;> cases flag' <;> first | exact absurd rfl hne | rfl
      rw [this, idle] at he
      cases he
    subst hflag
    have hnd : n.input_nullifiers.Nodup := by
      have := (validateTxnsBatch_ok valid).2.1
      exact (List.nodup_flatMap.1 this).1 (.freeze n) (List.mem_map.2 ⟨_, hn, rfl⟩)
    have hnd' : (records.map f.nullifier).Nodup := by
      rw [fr.nullifiers] at hnd
      exact (List.nodup_append.1 (List.nodup_cons.1 (List.nodup_cons.1 hnd).2).2).1
    have hreal : ∀ x ∈ records, x.1.asset_def ≠ AssetDefinition.dummy := fun x hx e => (follows_sees fol).real (by
      rw [← ((C67_lists fol).2 _ _ x ⟨_, sp.known, hx⟩).1, e]
      rfl)
    obtain ⟨p1, p2⟩ := sp.pendings hreal hnd'
    by_cases hmem : m ∈ records.map f.nullifier
    · obtain ⟨x, hx, rfl⟩ := List.mem_map.1 hmem
      obtain ⟨i, hi, rfl⟩ := List.mem_iff_getElem.1 hx
      have hx' := List.getElem?_eq_getElem hi
      rw [p2 i _ hx'] at he
      cases he
      have hin : n.input_nullifiers[i + 2]? = some (f.nullifier records[i]) := by
        rw [fr.nullifiers, List.getElem?_cons_succ, List.getElem?_cons_succ, List.getElem?_append_left (by simpa using hi),
          List.getElem?_map, hx']
        rfl
      obtain ⟨l1, e1⟩ := List.getElem?_eq_some_iff.1 hin
      obtain ⟨l2, e2⟩ := List.getElem?_eq_some_iff.1 hj
      obtain rfl : j = i + 1 := by
        have := (hnd.getElem_inj_iff (hi := l1) (hj := l2)).1 (e1.trans e2.symm)
        omega
      rw [fr.outputs, List.map_cons, List.map_cons, List.getElem?_cons_succ, List.getElem?_cons_succ, List.map_append,
        List.getElem?_append_left (by simpa using hi), List.getElem?_map, List.getElem?_mapIdx, hx']
      rfl
    · rw [p1 m hmem, idle] at he
      cases he

/-- what a viewer named in the policy reads of a mint, if the opening is revealed -/
theorem mint_opens {d : ℕ} {n : MintNote} {w : MintWit} (opens : OpensMint d n w) {v : ViewerKeyPair}
    (viewer : v.pubKey = n.mint_asset_def.policy.viewer_pk) (named : n.mint_asset_def.policy.viewer_pk ≠ 0)
    {owner : Pt} (hw : w.mint_ro.owner_addr = E.xy owner) (hr : n.mint_asset_def.policy.reveal_map[0] = true ∧
      n.mint_asset_def.policy.reveal_map[2] = true ∧ n.mint_asset_def.policy.reveal_map[3] = true) :
    ∃ x, v.openMintViewingMemo n = .ok x ∧ x.user_address = some owner ∧ x.amount = some n.mint_amount ∧
      x.blinding_factor = some w.mint_ro.blind := by
  obtain ⟨r0, r2, r3⟩ := hr
  unfold ViewerKeyPair.openMintViewingMemo
  rw [C15_opened opens viewer named]
  simp only [List.length_cons, List.length_nil, Nat.zero_add, Nat.reduceAdd, ne_eq, not_true_eq_false, if_false,
    ViewableData.fromMintNote, bind_ok_iff]
  have e1 : ViewableData.fetchAddress w.mint_ro.owner_addr.1 w.mint_ro.owner_addr.2 n.mint_asset_def = .ok (some owner) := by
    rw [hw]
    have := fetchAddress_pt n.mint_asset_def owner
    rwa [if_pos (.inl r0)] at this
  exact ⟨_, ⟨_, e1, rfl⟩, rfl, if_pos r2, if_pos r3⟩

/-! ### When the scan succeeds -/

/-- **A block is scanned** when the freezer can deal with every transaction of it, and there is a memo for every output but the
first. -/
theorem C67_scans_partial (fol : Follows d b k h s f) {txns : List (TransactionNote × List E.AeadCt)} {blind : F}
    {who : UserPubKey} {time : U64} {s' : LedgerState} {uid : U64}
    (valid : validateTxnsBatch d s (txns.map (·.1)) time = .ok ())
    (inserted : s.insertBlock d.val ⟨txns.map (·.1), blind, who⟩ = .ok s') (offset : uid.val = s.leaves.length)
    (memos : ∀ t ∈ txns, t.1.outputCommitments.length = t.2.length + 1) (legible : ∀ t ∈ txns, Legible b f t.1) :
    ∃ f', f.scanBlock b (txns.map (·.1)) (txns.map (·.2)) uid = (f', .ok ()) ∧
      Follows d b k (h ++ [(f, .block txns blind who time)]) s' f' := by
  have i := followsOk fol
  obtain ⟨h', w1, -⟩ := C67_wallet fol
  obtain ⟨w', recv, hw⟩ := world_scans w1 (b := b) inserted offset memos
  obtain ⟨fee, -, e1, -, -, e4, -⟩ := LedgerState.insertBlock_ok inserted
  have hlen : s'.leaves.length = s.leaves.length + outputs txns + 1 := by
    rw [e1, List.length_append, List.length_append, outputs_length, List.length_singleton]
  unfold Wallet.scanBlock at hw
  rw [if_neg (by simp), zip_map_self] at hw
  obtain ⟨f', hf'⟩ := Freezer.scanTxns_intro (b := b) (l := txns) (f := f) (uid := uid)
    ⟨fun flag m e he => (i.waits flag m e he).known, i.both⟩ legible (by omega)
    (fun t ht he => by
      have := memos t ht
      rw [he] at this
      cases this) hw
  have hs : f.scanBlock b (txns.map (·.1)) (txns.map (·.2)) uid = (f', .ok ()) := by
    unfold Freezer.scanBlock
    rw [if_neg (by simp), zip_map_self]
    exact hf'
  exact ⟨f', hs, fol.block valid inserted offset hs⟩

/-- **Transfers** of the asset to users whose keys the freezer has. -/
theorem C67_legible_transfer (sees : Sees f.viewer) {b' : Build} {rng : TransferRand} {inputs : List TransferNoteInput}
    {outputs : List RecordOpening} {pk : TransferProvingKey} {valid_until : U64} {extra : List Byte}
    {n : TransferNote} {sk : Fr} (gen : TransferNote.generate b' rng inputs outputs pk valid_until extra = .ok (n, sk))
    (hi : inputs.length < 2 ^ 64) (ho : outputs.length < 2 ^ 64) (moves : Moves f.viewer.asset_def inputs)
    (some_out : outputs.tail ≠ []) (over : 0 < moved inputs)
    (owned : ∀ i ∈ inputs.tail, i.ro.asset_def ≠ AssetDefinition.dummy → i.ro.pub_key.address ≠ 0)
    (known : ∀ o ∈ outputs.tail, mapGet o.pub_key.address f.users = some o.pub_key) : Legible b f (.transfer n) := by
  have := C14_seen (b' := b) gen hi ho moves some_out (by rw [sees.threshold]; exact over)
    (sees.owner.1.trans sees.owner.2.symm) (fun _ => owned) sees.viewer sees.named
  refine ⟨_, _, this, fun x hx => ?_⟩
  obtain ⟨o, ho, rfl⟩ := List.mem_map.1 hx
  refine ⟨{ o with asset_def := f.viewer.asset_def, freeze_flag := .unfrozen }, ⟨?_, ?_, ?_, rfl, rfl⟩, known o ho⟩
  · simp [viewOutput, viewOf, sees.owner.1]
  · simp [viewOutput, viewOf, sees.amount]
  · simp [viewOutput, viewOf, sees.blind]

/-- **Mints** for users whose keys the freezer has. -/
theorem C67_legible_mint (sees : Sees f.viewer) {d : ℕ} {n : MintNote} {w : MintWit} (opens : OpensMint d n w)
    (asset : n.mint_asset_def = f.viewer.asset_def) {owner : UserPubKey} (hw : w.mint_ro.owner_addr = E.xy owner.address)
    (known : mapGet owner.address f.users = some owner) : Legible b f (.mint n) := by
  obtain ⟨x, h1, h2, h3, h4⟩ := mint_opens opens (by rw [asset]; exact sees.viewer) (by rw [asset]; exact sees.named) hw
    (by rw [asset]; exact ⟨sees.owner.1, sees.amount, sees.blind⟩)
  exact ⟨x, ⟨n.mint_amount, f.viewer.asset_def, owner, .unfrozen, w.mint_ro.blind⟩, h1, ⟨h2, h3, h4, rfl, rfl⟩, known⟩

/-! ### What the conditions are for -/

omit S in
/-- what every scanned note of a block was scanned with -/
theorem scanTxns_each {S : CapExt} {b : Build} : ∀ {l : List (TransactionNote × List E.AeadCt)} {f f' : Freezer} {uid : U64},
    Freezer.scanTxns b f l uid = (f', .ok ()) → ∀ t ∈ l, ∃ (f1 f2 : Freezer) (u : U64), f1.viewer = f.viewer ∧
      f1.scanNote b t.1 u = .ok f2
  | [], f, f', uid, h => fun _ ht => (nomatch ht)
  | (t, memos) :: l, f, f', uid, h => by
    unfold Freezer.scanTxns at h
    split at h
    · cases h
    · next f1 h1 =>
      split at h
      · cases h
      · next next h2 =>
        have ih := scanTxns_each h
        unfold Freezer.scanTxn at h1
        split at h1
        · cases h1
        · next w r hw =>
          split at h1
          · cases h1
          · next f2 h3 =>
            cases h1
            intro x hx
            rcases List.mem_cons.1 hx with rfl | hx
            · exact ⟨{ f with wallet := w }, _, _, rfl, h3⟩
            · obtain ⟨f3, f4, u, e1, e2⟩ := ih x hx
              exact ⟨f3, f4, u, e1.trans (Freezer.scanNote_ok h3).viewer, e2⟩

/-- **It reads every transfer or none.**  A block whose scan succeeds contains only transfers whose memo the freezer can
decrypt, to something that starts with the code of its asset. -/
theorem C67_reads {txns : List TransactionNote} {memos : List (List E.AeadCt)} {uid : U64} {f' : Freezer}
    (scanned : f.scanBlock b txns memos uid = (f', .ok ())) {n : TransferNote} (mem : .transfer n ∈ txns) :
    ∃ rest, f.viewer.keypair.decrypt n.viewing_memo = f.viewer.asset_def.code :: rest := by
  unfold Freezer.scanBlock at scanned
  split at scanned
  · cases scanned
  next hl =>
  have hl := not_not.1 hl
  obtain ⟨i, hi, e⟩ := List.mem_iff_getElem.1 mem
  obtain ⟨f1, f2, u, e1, e2⟩ := scanTxns_each scanned (txns[i], memos[i]'(hl ▸ hi))
    (List.mem_iff_getElem.2 ⟨i, by simp only [List.length_zip]; omega, by simp⟩)
  rw [e] at e2
  simp only [Freezer.scanNote, Freezer.scanXfr, Viewer.scanXfr, bind_ok_iff] at e2
  obtain ⟨_, ⟨_, -, _, -, _, h1, -⟩, -⟩ := e2
  unfold ViewerKeyPair.openTransferViewingMemo at h1
  rw [e1] at h1
  split at h1
  · cases h1
  simp only [bind_ok_iff] at h1
  obtain ⟨_, -, _, -, h1⟩ := h1
  split at h1
  · cases h1
  split at h1
  · cases h1
  · next hd =>
    split at h1
    · cases h1
    · next hc =>
      rw [not_not.1 hc]
      exact ⟨_, hd⟩

/-- **Another asset of the same viewer** is enough: the scan of a block with a transfer of it, above its threshold, fails. -/
theorem C67_blind_false {a c d : ℕ} {n : TransferNote} {w : TransferWit} (opens : OpensTransfer a c d n w) (hc : c < 2 ^ 64)
    (other : w.asset_code ≠ f.viewer.asset_def.code) (foreign : w.asset_code ≠ nativeCode) {pol : AssetPolicy}
    (policy : w.policy = pol.toV) (viewer : f.viewer.keypair.pubKey = pol.viewer_pk) (named : pol.viewer_pk ≠ 0)
    (over : pol.reveal_threshold.val < (w.outputs.tail.map (·.amount.val)).sum) {txns : List TransactionNote}
    (mem : .transfer n ∈ txns) (memos : List (List E.AeadCt)) (uid : U64) :
    ∃ f' e, f.scanBlock b txns memos uid = (f', .error e) := by
  rcases hs : f.scanBlock b txns memos uid with ⟨f', e | ⟨⟩⟩
  · exact ⟨f', e, rfl⟩
  · exfalso
    obtain ⟨rest, hr⟩ := C67_reads hs mem
    have hul : ¬ underLimit w = true := by
      rw [underLimit_outputs opens hc (t := pol.reveal_threshold) (by rw [policy]; rfl) foreign]
      omega
    rcases opens.sat.memo with (hm | hm) | hm
    · exact hul hm
    · rw [policy] at hm
      exact named ((isDummyViewingPk_host _).1 hm)
    · have hm' : n.pub.toV.memo = MemoV.derive w.policy.viewer_pk (transferMsgV w) w.enc_rand := of_decide_eq_true hm
      rw [policy, AssetPolicy.toV, ← viewer] at hm'
      have : f.viewer.keypair.decrypt n.viewing_memo = _ := decrypt_derive _ hm'
      rw [hr, transferMsgV] at this
      exact other (List.cons.inj this).1.symm

/-- **A mint for somebody the freezer has not heard of** makes the scan fail as well. -/
theorem C67_stranger_false {d : ℕ} {n : MintNote} {w : MintWit} (opens : OpensMint d n w)
    (viewer : f.viewer.keypair.pubKey = n.mint_asset_def.policy.viewer_pk) (named : n.mint_asset_def.policy.viewer_pk ≠ 0)
    {owner : Pt} (hw : w.mint_ro.owner_addr = E.xy owner) (reveals : n.mint_asset_def.policy.reveal_map[0] = true ∧
      n.mint_asset_def.policy.reveal_map[2] = true ∧ n.mint_asset_def.policy.reveal_map[3] = true)
    (unknown : mapGet owner f.users = none) {txns : List (TransactionNote × List E.AeadCt)} {memos : List E.AeadCt}
    (mem : (.mint n, memos) ∈ txns) (uid : U64) :
    ∃ f' e, f.scanBlock b (txns.map (·.1)) (txns.map (·.2)) uid = (f', .error e) := by
  rcases hs : f.scanBlock b (txns.map (·.1)) (txns.map (·.2)) uid with ⟨f', e | ⟨⟩⟩
  · exact ⟨f', e, hs⟩
  · exfalso
    obtain ⟨x, h1, h2, h3, h4⟩ := mint_opens opens viewer named hw reveals
    obtain ⟨m, hi⟩ := InList.of_mem mem
    obtain ⟨user, ro, u, h5, -⟩ := (Freezer.scanBlock_ok hs).1.shown _ _ _ _ _ hi (.mint h1)
    unfold Freezer.describe at h5
    rw [h2, h3, h4] at h5
    dsimp only at h5
    rw [unknown] at h5
    cases h5

/-- **A mint of another asset of the same viewer** gets on the list as a record of the freezer's asset, although the leaf at
this position is another record (or the commitment function collides). -/
theorem C67_foreign_false (fol : Follows d b k h s f) {d' : ℕ} {n : MintNote} {w : MintWit} (opens : OpensMint d' n w)
    (viewer : f.viewer.keypair.pubKey = n.mint_asset_def.policy.viewer_pk) (named : n.mint_asset_def.policy.viewer_pk ≠ 0)
    {owner : Pt} (hw : w.mint_ro.owner_addr = E.xy owner) (reveals : n.mint_asset_def.policy.reveal_map[0] = true ∧
      n.mint_asset_def.policy.reveal_map[2] = true ∧ n.mint_asset_def.policy.reveal_map[3] = true)
    (other : n.mint_asset_def ≠ f.viewer.asset_def) {memos : List E.AeadCt} {pos : ℕ}
    (there : At (events h) (.mint n) memos pos) : ∃ ro, ∃ uid : U64, uid.val = pos + 1 ∧
      ro.asset_def = f.viewer.asset_def ∧ ro.amount = n.mint_amount ∧ ro.pub_key.address = owner ∧
      (f.Lists .unfrozen owner (ro, uid) ∨ Taken h (f.nullifier (ro, uid))) ∧ s.leaves[uid.val]? = some n.mint_comm ∧
      (n.mint_comm ≠ ro.commitment ∨ Collides commitOf (ro.scalars, ro.blind) (w.mint_ro.scalars, w.mint_ro.blind)) := by
  obtain ⟨x, h1, h2, h3, h4⟩ := mint_opens opens viewer named hw reveals
  obtain ⟨ro, uid, q1, q2, q3⟩ := C67_shown fol there (i := 1) (rc := n.mint_comm) rfl (.mint h1)
  have ho : owner = ro.pub_key.address := Option.some.inj (h2.symm.trans q1.owner)
  have ha : n.mint_amount = ro.amount := Option.some.inj (h3.symm.trans q1.amount)
  refine ⟨ro, uid, q2, q1.asset, ha.symm, ho.symm, by rw [ho]; exact q3, ?_, ?_⟩
  · obtain ⟨h', w1, w2⟩ := C67_wallet fol
    rw [q2]
    exact world_leaf w1 ((w2 _ _ _).2 there) rfl
  · by_cases hc : n.mint_comm = ro.commitment
    · rcases C45_records opens ro hc.symm with ⟨-, e, -⟩ | hcol
      · exact absurd (e.symm.trans q1.asset) other
      · exact .inr hcol
    · exact .inl hc

/-- **A spent record stays on the list.**  If a transaction other than a freeze note spends a listed record, it is listed for
ever, and every request for its owner is refused from then on. -/
theorem C67_stale_false (fol : Follows d b k h s f) {f0 : Freezer} {txns : List (TransactionNote × List E.AeadCt)} {blind : F}
    {who : UserPubKey} {time : U64} (then_ : (f0, .block txns blind who time) ∈ h) {flag : FreezeFlag} {user : Pt}
    {x : RecordOpening × U64} (listed : f0.Lists flag user x) {t : TransactionNote} {memos : List E.AeadCt}
    (mem : (t, memos) ∈ txns) (other : ∀ n, t ≠ .freeze n) (spends : f.nullifier x ∈ t.nullifiers) :
    f.Lists flag user x ∧ ∀ rng fee f' note memos sig, f.freezeUser d s rng flag user fee = .ok (f', note, memos, sig) →
      ∀ (d' : Fin 256) (l : List TransactionNote) (time : U64), .freeze note ∈ l → validateTxnsBatch d' s l time ≠ .ok () := by
  obtain ⟨h', w1, w2⟩ := C67_wallet fol
  have hat : ∃ pos, At (events h) t memos pos := by
    obtain ⟨before, after, rfl⟩ := List.append_of_mem then_
    obtain ⟨earlier, later, rfl⟩ := List.append_of_mem mem
    exact ⟨_, events before, _, blind, who, time, events after, earlier, later, by simp [events], rfl, rfl⟩
  obtain ⟨pos, hat⟩ := hat
  have hl : f.Lists flag user x := by
    rcases C67_stays fol then_ listed with hl | ⟨n, ms, pos', h1, h2⟩
    · exact hl
    · exact absurd (world_once w1 ((w2 _ _ _).2 hat) ((w2 _ _ _).2 h1) spends h2).1 (other n)
  exact ⟨hl, fun rng fee f' note memos sig ok d' l time hm =>
    C64_spent_false hl (((worldOk w1).nulls _).2 ⟨_, _, _, (w2 _ _ _).2 hat, spends⟩) ok d' time hm⟩

/-- **Two requests in a row.**  When the note of the first one gets into a block, the freezer records the opening of the
second one: the blinding factor is wrong, and the listed record is not the one on the ledger (or the commitment function
collides). -/
theorem C67_twice_false (fol : Follows d b k h s f) {rng rng' : FreezerRand} {flag : FreezeFlag} {user : Pt} {fee fee' : Amount}
    {f1 f2 f3 : Freezer} {note note' : FreezeNote} {memos memos' : List E.AeadCt} {sig sig' : E.Sig}
    (first : f.freezeUser d s rng flag user fee = .ok (f1, note, memos, sig))
    (second : f1.freezeUser d s rng' flag user fee' = .ok (f2, note', memos', sig')) {records : List (RecordOpening × U64)}
    (known : mapGet user (f.shelf flag) = some records) {j : ℕ} {x : RecordOpening × U64} (hx : records[j]? = some x)
    (differ : rng.note.blinds (j + 1) ≠ rng'.note.blinds (j + 1)) {txns : List (TransactionNote × List E.AeadCt)} {blind : F}
    {who : UserPubKey} {time : U64} {s' : LedgerState} {uid : U64} (mem : (.freeze note, memos) ∈ txns)
    (valid : validateTxnsBatch d s (txns.map (·.1)) time = .ok ())
    (inserted : s.insertBlock d.val ⟨txns.map (·.1), blind, who⟩ = .ok s') (offset : uid.val = s.leaves.length)
    (scanned : f2.scanBlock b (txns.map (·.1)) (txns.map (·.2)) uid = (f3, .ok ())) :
    ∃ u : U64, s'.leaves[u.val]? = some (flipped rng j x).commitment ∧
      (f3.Lists flag.flip user (flipped rng' j x, u) ∨
        Taken (h ++ [(f2, .block txns blind who time)]) (f3.nullifier (flipped rng' j x, u))) ∧
      ((flipped rng' j x).commitment ≠ (flipped rng j x).commitment ∨
        Collides commitOf ((flipped rng' j x).scalars, (flipped rng' j x).blind)
          ((flipped rng j x).scalars, (flipped rng j x).blind)) := by
  have fol1 := fol.froze first
  have fol3 := (fol1.froze second).block (blind := blind) (who := who) valid inserted offset scanned
  have hmem : x ∈ records := List.mem_of_getElem? hx
  obtain ⟨h', w1, -⟩ := C67_wallet fol
  obtain ⟨h1, w2, -⟩ := C67_wallet fol1
  obtain ⟨h3, w3, at3⟩ := C67_wallet fol3
  obtain ⟨r1, coin, chg, e1, fr, -, -, ⟨s1, s2, s3, s4⟩, -⟩ := C64_did w1 first
  rw [known] at e1
  cases e1
  obtain ⟨r2, coin', chg', e2, fr', -, -, -, wait⟩ := C64_did w2 second
  rw [s4, known] at e2
  cases e2
  have sees := follows_sees fol
  have lists := fun y hy => (C67_lists fol).2 flag user y ⟨_, known, hy⟩
  have wait := wait (fun y hy e => sees.real (by
    rw [← (lists y hy).1, e]
    rfl)) j x hx
  rw [nullifier_congr s1, (lists x hmem).2.2] at wait
  have hin : note.input_nullifiers[j + 1 + 1]? = some (f.nullifier x) := by
    have hj := (List.getElem?_eq_some_iff.1 hx).1
    rw [fr.nullifiers, List.getElem?_cons_succ, List.getElem?_cons_succ, List.getElem?_append_left (by simpa using hj),
      List.getElem?_map, hx]
    rfl
  have hout : note.output_commitments[j + 1 + 1]? = some (flipped rng j x).commitment := by
    have hj := (List.getElem?_eq_some_iff.1 hx).1
    rw [fr.outputs, List.map_cons, List.map_cons, List.getElem?_cons_succ, List.getElem?_cons_succ, List.map_append,
      List.getElem?_append_left (by simpa using hj), List.getElem?_map, List.getElem?_mapIdx, hx]
    rfl
  obtain ⟨pos, u, q1, q2, q3⟩ := C67_confirmed fol3 (List.mem_append_right _ (List.mem_singleton.2 rfl)) mem hin wait hout
  refine ⟨u, ?_, q3, ?_⟩
  · have := world_leaf w3 ((at3 _ _ _).2 q1) (i := j + 1 + 1) hout
    rw [q2]
    rwa [show pos + 1 + (j + 1) = pos + (j + 1 + 1) by omega]
  · by_cases hc : (flipped rng' j x).commitment = (flipped rng j x).commitment
    · refine .inr ⟨fun e => differ ?_, hc⟩
      exact (Prod.mk.inj e).2.symm
    · exact .inl hc

end Cap

namespace Cap.Examples

open Toy Spec

/-! A freezer whose fees Carol pays.  Alice mints 1000 of its asset for Bob, and the freezer freezes them. -/

def keepAsset : AssetDefinition := ⟨newDomestic seed desc,
  { AssetPolicy.default with
    viewer_pk := viewer.pubKey
    freezer_pk := freezer.pub_key
    reveal_map := #v[true, true, true, true, false, false, false, false, false, false, false, false] }⟩
def keeper0 : Freezer := ⟨⟨viewer, keepAsset⟩, freezer, Wallet.new carol, [], [], [], [], []⟩

theorem keeper0_made : Freezer.generate freezer viewer carol (newDomestic seed desc) = .ok keeper0 := by rfl

theorem roomy {s : LedgerState} {x : F} (h : s.leaves.length < 27) :
    LedgerState.insertRecord 3 s x = .ok { s with leaves := s.leaves ++ [x] } := by
  unfold LedgerState.insertRecord
  rw [if_pos ⟨by norm_num; omega, by norm_num; omega⟩]

def treeK : List F := [frzCoin.commitment, feeRec.commitment]
def ledK : LedgerState := ⟨treeK, [], [treeRoot 3 treeK, treeRoot 3 [frzCoin.commitment], treeRoot 3 []]⟩
def keeper1 : Freezer := { keeper0 with wallet := walletF }.addUserKey bob.pubKey
def histK : List (Freezer × Seen) := [(keeper0, .grant frzCoin), (keeper0, .grant feeRec)]

theorem followsK : Follows 3 .debug carol histK ledK keeper1 := by
  refine .user (f := { keeper0 with wallet := walletF }) (.told (f := keeper0) ?_ rfl rfl rfl (by simp [ledK])) bob.pubKey
  exact .grant (h := [(keeper0, .grant frzCoin)])
    (s := ⟨[frzCoin.commitment], [], [treeRoot 3 [frzCoin.commitment], treeRoot 3 []]⟩)
    (.grant (h := []) (.start keeper0_made rfl (by decide +kernel)) (bind_ok_iff.2 ⟨_, roomy (by decide), rfl⟩))
    (bind_ok_iff.2 ⟨_, roomy (by decide), rfl⟩)

theorem worldK : World 3 .debug carol [.grant frzCoin, .grant feeRec, .told frzCoin 0] ledK walletF := by
  refine .told (h := [.grant frzCoin, .grant feeRec]) (w := Wallet.new carol) ?_ rfl rfl rfl (by simp [ledK])
  exact .grant (h := [.grant frzCoin])
    (s := ⟨[frzCoin.commitment], [], [treeRoot 3 [frzCoin.commitment], treeRoot 3 []]⟩)
    (.grant (h := []) .start (bind_ok_iff.2 ⟨_, roomy (by decide), rfl⟩)) (bind_ok_iff.2 ⟨_, roomy (by decide), rfl⟩)

/-- the minted record -/
def keepRec : RecordOpening := ⟨1000, keepAsset, bob.pubKey, .unfrozen, (48 : ZMod p)⟩
def keepFee : TxnFeeInfo :=
  ⟨⟨feeRec, ⟨treePath 3 treeK 1, treeRoot 3 treeK, 1⟩, alice⟩, 7, ⟨93, AssetDefinition.native, alice.pubKey, .unfrozen, (49 : ZMod p)⟩⟩
noncomputable def keepPk : MintProvingKey := ⟨.mint 3, 3⟩
noncomputable def keepVk : MintVerifyingKey := ⟨.mint 3, 3⟩

theorem keep_keys : mintPreprocess 3 = .ok (keepPk, keepVk) := rfl
theorem keep_isOk : isOk (MintNote.generate rng keepRec seed desc keepFee keepPk) = true := by decide +kernel

noncomputable def keepNote : MintNote := (okVal (MintNote.generate rng keepRec seed desc keepFee keepPk) keep_isOk).1
noncomputable def keepSk : Fr := (okVal (MintNote.generate rng keepRec seed desc keepFee keepPk) keep_isOk).2

theorem keepNote_eq : MintNote.generate rng keepRec seed desc keepFee keepPk = .ok (keepNote, keepSk) := okVal_eq2 _ keep_isOk

/-- the receiver memo -/
noncomputable def keepMemo : Toy.E.AeadCt := okVal (ReceiverMemo.fromRo 3 keepRec []) rfl

noncomputable def keepBlock : List (TransactionNote × List Toy.E.AeadCt) := [(.mint keepNote, [keepMemo])]

theorem keep_opens : OpensMint 3 keepNote (mintWitnessOf rng.enc_rand keepRec seed desc keepFee).toV :=
  mint_generated keepNote_eq (by decide)

theorem keep_lists : (match keeper1.scanBlock .debug [.mint keepNote] [[keepMemo]] 2 with
    | (f, .ok ()) => decide (mapGet bob.address (f.shelf .unfrozen) = some [(keepRec, 3)])
    | _ => false) = true := by decide +kernel

theorem keep_nullifier : keepNote.input_nullifier = ownNullifier alice (feeRec, 1) := by decide +kernel

/-- none of these is published by the mint -/
theorem keep_unused : ([ownNullifier carol (frzCoin, 0), keeper1.nullifier (keepRec, 3), dummyNull (dummyFirst frzRand .unfrozen),
    dummyNull (dummyLast frzRand .unfrozen)].all (fun x => decide (x ≠ ownNullifier alice (feeRec, 1)))) = true := by
  decide +kernel

theorem keep_once : (ownNullifier carol (frzCoin, 0) :: dummyNull (dummyFirst frzRand .unfrozen) ::
    ([(keepRec, (3 : U64))].map keeper1.nullifier ++ [dummyNull (dummyLast frzRand .unfrozen)])).Nodup := by decide +kernel

theorem keep_carol : isOk (ReceiverMemo.decrypt keepMemo carol keepRec.commitment []) = false := by decide +kernel

attribute [irreducible] keepNote keepSk

theorem keep_valid : validateTxnsBatch 3 ledK [.mint keepNote] 5 = .ok () := by
  have h := validate_made Toy.complete Toy.batch (d := 3) (s := ledK) (time := 5)
    (ts := [⟨.mint keepNote, [(keepFee.fee_input.ro, keepFee.fee_input.acc)], [keepFee.fee_chg_ro, keepRec]⟩]) (by simp)
    (by
      intro t ht
      obtain rfl := List.mem_singleton.1 ht
      exact .mint keep_keys keepNote_eq)
    (by
      intro t ht
      obtain rfl := List.mem_singleton.1 ht
      show keepNote.mint_amount.val < 2 ^ 127
      rw [(C18_fields keepNote_eq).1]
      decide)
    (by
      intro t ht
      obtain rfl := List.mem_singleton.1 ht
      show keepNote.aux_info.merkle_root ∈ _
      rw [(C18_fields keepNote_eq).2.2.2.2.2.1]
      exact List.mem_cons_self)
    (by
      show [keepNote.input_nullifier].Nodup
      simp)
    (by simp [ledK])
  exact h

theorem keep_inserted : ∃ s', ledK.insertBlock 3 ⟨keepBlock.map (·.1), (47 : ZMod p), bob.pubKey⟩ = .ok s' := by
  have hins := (C52_partial (d := 3) (b := ⟨keepBlock.map (·.1), (47 : ZMod p), bob.pubKey⟩) (s := ledK)
    (show Room 3 ledK 0 from ⟨by decide, by decide⟩)).1.2 ⟨by
      show Room 3 ledK 3
      exact ⟨by decide, by decide⟩, by simp [keepBlock]⟩
  exact ⟨_, C52_same.2 (Prod.ext rfl hins)⟩

theorem keep_legible : ∀ t ∈ keepBlock, Legible .debug keeper1 t.1 := by
  intro t ht
  obtain rfl := List.mem_singleton.1 ht
  exact C67_legible_mint (follows_sees followsK) keep_opens (C18_fields keepNote_eq).2.1 (owner := bob.pubKey) rfl rfl

theorem keep_at {h : List Seen} (hh : ∀ e ∈ h, (∃ ro, e = .grant ro) ∨ ∃ ro u, e = .told ro u) (hr : records h = 2)
    {t : TransactionNote} {m : List Toy.E.AeadCt} {pos : ℕ}
    (a : At (h ++ [.block keepBlock (47 : ZMod p) bob.pubKey 5]) t m pos) : t = .mint keepNote ∧ m = [keepMemo] ∧ pos = 2 := by
  rcases a.cases with a | ⟨txns, blind, who, time, n, h1, h2, rfl⟩
  · exfalso
    obtain ⟨before, txns, blind, who, time, after, -, -, h1, -⟩ := a
    have : Seen.block txns blind who time ∈ h := by rw [h1]; simp
    rcases hh _ this with ⟨_, h⟩ | ⟨_, _, h⟩ <;> cases h
  · cases h1
    rcases h2.cases with ⟨h3, h4⟩ | ⟨m, -, h3⟩
    · cases h3
      exact ⟨rfl, rfl, by rw [h4, hr]⟩
    · exact (nomatch h3.mem)

noncomputable def histK' : List (Freezer × Seen) := histK ++ [(keeper1, .block keepBlock (47 : ZMod p) bob.pubKey 5)]
noncomputable def seenK : List Seen :=
  [.grant frzCoin, .grant feeRec, .told frzCoin 0] ++ [.block keepBlock (47 : ZMod p) bob.pubKey 5]

/-- The freezer scans the block, and lists the record for Bob. -/
theorem keep_after : ∃ s' f, ledK.insertBlock 3 ⟨keepBlock.map (·.1), (47 : ZMod p), bob.pubKey⟩ = .ok s' ∧
    Follows 3 .debug carol histK' s' f ∧ mapGet bob.address (f.shelf .unfrozen) = some [(keepRec, 3)] ∧
    f.keypair = keeper1.keypair ∧ f.viewer = keeper1.viewer ∧
    World 3 .debug carol seenK s' f.wallet ∧ ∀ flag m, mapGet m (f.waiting flag) = none := by
  obtain ⟨s', hs'⟩ := keep_inserted
  obtain ⟨f, h1, h2⟩ := C67_scans_partial followsK (txns := keepBlock) (uid := 2) keep_valid hs' rfl
    (by
      intro t ht
      obtain rfl := List.mem_singleton.1 ht
      rfl) keep_legible
  refine ⟨s', f, hs', h2, ?_, (Freezer.scanBlock_ok h1).1.keypair, (Freezer.scanBlock_ok h1).1.viewer, ?_, ?_⟩
  · have := keep_lists
    rw [show keeper1.scanBlock .debug [.mint keepNote] [[keepMemo]] 2 = _ from h1] at this
    exact of_decide_eq_true this
  · obtain ⟨recv, hw⟩ := (Freezer.scanBlock_ok h1).2
    exact World.block worldK keep_valid hs' rfl hw
  · intro flag m
    by_contra hne
    obtain ⟨e, he⟩ := Option.ne_none_iff_exists'.1 hne
    have := (Freezer.scanBlock_ok h1).1.waits flag m e he
    cases flag <;> cases this

theorem keep_events {t : TransactionNote} {m : List Toy.E.AeadCt} {pos : ℕ} (a : At (events histK') t m pos) :
    t = .mint keepNote := (keep_at (h := [.grant frzCoin, .grant feeRec]) (by simp) rfl a).1

theorem keep_truthful {s : LedgerState} {f : Freezer} (fol : Follows 3 .debug carol histK' s f)
    (hv : f.viewer = keeper1.viewer) : Truthful .debug f.viewer histK' ∧ Matched histK' := by
  refine ⟨C67_truthful fol (fun n m pos a => ?_) (fun n m pos a => ?_), ?_⟩
  · cases keep_events a
  · cases keep_events a
    exact ⟨by rw [hv]; exact (C18_fields keepNote_eq).2.1, _, _, keep_opens⟩
  · intro f0 txns blind who time hm n memos hn
    simp only [histK', histK, List.cons_append, List.nil_append, List.mem_cons, Prod.mk.injEq, reduceCtorEq, and_false, false_or,
      List.not_mem_nil, or_false, Seen.block.injEq] at hm
    rw [hm.2.1] at hn
    cases List.mem_singleton.1 hn

theorem keep_received : ∀ x, Received carol seenK x → x = (frzCoin, 0) := by
  have hat := @keep_at [.grant frzCoin, .grant feeRec, .told frzCoin 0] (by simp) rfl
  intro x hx
  cases hx with
  | told mem =>
    simp only [seenK, List.cons_append, List.nil_append, List.mem_cons, List.not_mem_nil, or_false, reduceCtorEq,
      false_or, Seen.told.injEq] at mem
    rw [mem.1, mem.2]
  | memo a o m op p =>
    exfalso
    rename_i t ms pos j rc c ro uid
    obtain ⟨e1, e2, e3⟩ := hat a
    rw [e2] at m
    have hj : j < 1 := (List.getElem?_eq_some_iff.1 m).1
    obtain rfl : j = 0 := by omega
    rw [e1] at o
    have o : keepNote.mint_comm = rc := Option.some.inj o
    rw [← Option.some.inj m, ← o, (C18_fields keepNote_eq).2.2.1] at op
    have := keep_carol
    rw [op] at this
    cases this
  | change wt a o p =>
    simp [seenK] at wt

theorem keep_apart : Apart carol seenK := by
  have hat := @keep_at [.grant frzCoin, .grant feeRec, .told frzCoin 0] (by simp) rfl
  have hr := keep_received
  refine ⟨fun x y hx hy _ => (hr x hx).trans (hr y hy).symm, fun x hx t m pos a hp => ?_⟩
  rw [hr x hx, (hat a).1] at hp
  have : pos + 2 ≤ 0 := hp
  omega

/-- The freezer freezes Bob's record: the request is accepted, and when it is in a block, the record is on the other list. -/
example : ∃ s f f' note memos sig, Follows 3 .debug carol histK' s f ∧
    mapGet bob.address (f.shelf .unfrozen) = some [(keepRec, 3)] ∧ s.leaves[3]? = some keepRec.commitment ∧
    f.freezeUser 3 s frzRand .unfrozen bob.address 7 = .ok (f', note, memos, sig) ∧
    ∃ s' f'', Follows 3 .debug carol (histK' ++ [(f', .block [(.freeze note, memos)] (47 : ZMod p) bob.pubKey 6)]) s' f'' ∧
      (∃ uid : U64, uid.val = 7 ∧ (f''.Lists .frozen bob.address (flipped frzRand 0 (keepRec, 3), uid) ∨
        Taken (histK' ++ [(f', .block [(.freeze note, memos)] (47 : ZMod p) bob.pubKey 6)])
          (f''.nullifier (flipped frzRand 0 (keepRec, 3), uid)))) ∧
      ¬ f''.Lists .unfrozen bob.address (keepRec, 3) := by
  obtain ⟨s, f, hs, fol, hl, hk, hv, hw, idle⟩ := keep_after
  obtain ⟨truthful, matched⟩ := keep_truthful fol hv
  have there := C67_there_partial fol truthful matched (x := (keepRec, 3)) ⟨_, hl, List.mem_singleton.2 rfl⟩
  obtain ⟨fee, -, e1, -, e3, -⟩ := LedgerState.insertBlock_ok hs
  have hnul : ∀ x, x ∈ s.nullifiers → x = ownNullifier alice (feeRec, 1) := by
    intro x hx
    rcases (e3 x).1 hx with h | h
    · simp only [keepBlock, List.map_cons, List.map_nil, List.flatMap_cons, List.flatMap_nil, List.append_nil] at h
      rw [← keep_nullifier]
      exact List.mem_singleton.1 h
    · cases h
  have unused := keep_unused
  simp only [List.all_cons, List.all_nil, Bool.and_true, Bool.and_eq_true, decide_eq_true_eq] at unused
  obtain ⟨u1, u2, u3, u4⟩ := unused
  have hold : ∀ x, f.wallet.Holds x → x = (frzCoin, 0) := fun x hx => keep_received x (C59_sound hw x hx).1
  have hcoin : f.wallet.Holds (frzCoin, 0) :=
    (C59_told hw frzCoin 0 (by simp [seenK])).resolve_right (fun h => u1 (hnul _ h))
  have hfn : f.nullifier = keeper1.nullifier := by
    unfold Freezer.nullifier
    rw [hk]
  obtain ⟨f', note, memos, sig, h1, -, -, valid⟩ := C67_accepted_partial Toy.complete Toy.batch fol truthful matched hl
    frz_owners.1.2 (by
      intro x hx hn
      obtain rfl := List.mem_singleton.1 hx
      rw [hfn] at hn
      exact u2 (hnul _ hn)) hw keep_apart frzRand (fee := 7)
    (fun x hx _ => by rw [hold x hx]; rfl) ⟨_, hcoin, rfl, by decide⟩ frz_owners.2
    (fun x hx _ => by rw [hold x hx, hfn]; exact keep_once) ⟨fun h => u3 (hnul _ h), fun h => u4 (hnul _ h)⟩ ⟨_, rfl⟩
    (fun i o ho => ⟨_, rfl⟩)
  refine ⟨s, f, f', note, memos, sig, fol, hl, there, h1, ?_⟩
  obtain ⟨records, coin, chg, hr, fr, -, -, ⟨s1, s2, -, s3⟩, wait⟩ := C64_did hw h1
  rw [hl] at hr
  cases hr
  have hlen : s.leaves.length = 5 := by
    rw [e1]
    rfl
  have hl4 : note.output_commitments.length = 4 := by rw [fr.outputs]; rfl
  have hins : ∃ s', s.insertBlock 3 ⟨[.freeze note], (47 : ZMod p), bob.pubKey⟩ = .ok s' := by
    have hroom : ∀ n, n ≤ 10 → Room 3 s n := fun n hn =>
      ⟨by rw [hlen]; norm_num; omega, by rw [hlen]; norm_num; omega⟩
    have hins := (C52_partial (d := 3) (b := ⟨[.freeze note], (47 : ZMod p), bob.pubKey⟩) (s := s) (hroom 0 (by omega))).1.2 ⟨by
        show Room 3 s ((note.output_commitments.length + 0) + 1)
        rw [hl4]
        exact hroom 5 (by omega), by simp⟩
    exact ⟨_, C52_same.2 (Prod.ext rfl hins)⟩
  obtain ⟨s', hs'⟩ := hins
  obtain ⟨f'', h2, fol'⟩ := C67_scans_partial (fol.froze h1) (txns := [(.freeze note, memos)]) (time := 6) (uid := 5) (valid 6) hs'
    hlen.symm
    (by
      intro t ht
      obtain rfl := List.mem_singleton.1 ht
      show note.output_commitments.length = memos.length + 1
      rw [hl4, fr.memos.1]
      rfl)
    (by
      intro t ht
      obtain rfl := List.mem_singleton.1 ht
      show note.input_nullifiers.length ≤ note.output_commitments.length
      rw [hl4, fr.nullifiers]
      rfl)
  have real : ∀ x ∈ [(keepRec, (3 : U64))], x.1.asset_def ≠ AssetDefinition.dummy := by
    intro x hx e
    obtain rfl := List.mem_singleton.1 hx
    exact (follows_sees followsK).real (congrArg AssetDefinition.code e)
  have wait := wait real 0 (keepRec, 3) rfl
  have hin : note.input_nullifiers[1 + 1]? = some (f.nullifier (keepRec, 3)) := by rw [fr.nullifiers]; rfl
  have hout : note.output_commitments[1 + 1]? = some (flipped frzRand 0 (keepRec, 3)).commitment := by rw [fr.outputs]; rfl
  have hmem : (f', Seen.block [(.freeze note, memos)] (47 : ZMod p) bob.pubKey 6) ∈
      histK' ++ [(f', .block [(.freeze note, memos)] (47 : ZMod p) bob.pubKey 6)] := by simp
  refine ⟨s', f'', fol', ?_, ?_⟩
  · obtain ⟨pos, uid, q1, q2, q3⟩ := C67_confirmed fol' hmem (List.mem_singleton.2 rfl) hin wait hout
    refine ⟨uid, ?_, q3⟩
    rw [events_append] at q1
    rcases q1.cases with a | ⟨txns, blind, who, time, n, g1, g2, rfl⟩
    · cases keep_events a
    · cases g1
      rcases g2.cases with ⟨-, g4⟩ | ⟨m, -, g3⟩
      · rw [q2, g4]
        rfl
      · exact (nomatch g3.mem)
  · have hv' : f''.viewer = keeper1.viewer := ((Freezer.scanBlock_ok h2).1.viewer.trans s2).trans hv
    have hat' : ∀ {t m pos}, At (events (histK' ++ [(f', .block [(.freeze note, memos)] (47 : ZMod p) bob.pubKey 6)])) t m pos →
        t = .mint keepNote ∨ t = .freeze note := by
      intro t m pos a
      rw [events_append] at a
      rcases a.cases with a | ⟨txns, blind, who, time, n, g1, g2, -⟩
      · exact .inl (keep_events a)
      · cases g1
        exact .inr (Prod.mk.inj (List.mem_singleton.1 g2.mem)).1
    refine (C67_moved fol' (C67_truthful fol' (fun n m pos a => ?_) (fun n m pos a => ?_))
      (C67_matched_next fol matched idle h1 (valid 6) ?_) hmem (List.mem_singleton.2 rfl) hin wait).2
    · rcases hat' a with h | h <;> cases h
    · rcases hat' a with h | h
      · cases h
        exact ⟨by rw [hv']; exact (C18_fields keepNote_eq).2.1, _, _, keep_opens⟩
      · cases h
    · intro n memos hn
      cases List.mem_singleton.1 hn
      rfl

/-! What the conditions are for. -/

/-- A freezer that has not heard of Bob cannot scan the block. -/
example : ∃ f' e, keeper0.scanBlock .debug (keepBlock.map (·.1)) (keepBlock.map (·.2)) 2 = (f', .error e) := by
  have sees := generate_sees keeper0_made
  have asset : keepNote.mint_asset_def = keeper0.viewer.asset_def := (C18_fields keepNote_eq).2.1
  exact C67_stranger_false keep_opens (by rw [asset]; exact sees.viewer) (by rw [asset]; exact sees.named) (owner := bob.address)
    rfl (by rw [asset]; exact ⟨sees.owner.1, sees.amount, sees.blind⟩) rfl (List.mem_singleton.2 rfl) 2

/-- the freezer of another asset of the same viewer -/
def strangeAsset : AssetDefinition := ⟨newDomestic (22 : ZMod p) desc, keepAsset.policy⟩
def stranger0 : Freezer := ⟨⟨viewer, strangeAsset⟩, freezer, Wallet.new carol, [], [], [], [], []⟩

theorem stranger0_made : Freezer.generate freezer viewer carol (newDomestic (22 : ZMod p) desc) = .ok stranger0 := by rfl

theorem strange_code : keepAsset.code ≠ strangeAsset.code := by decide +kernel

/-- It cannot scan a block with a transfer of this asset. -/
example (memos : List (List Toy.E.AeadCt)) : ∃ f' e, stranger0.scanBlock .debug [.transfer xfrNote] memos 2 = (f', .error e) := by
  obtain ⟨w, opens, -, ho, ha, -⟩ := transfer_generated xfrNote_eq
  have hcode : w.toV.asset_code = asset.code := by
    show w.asset_def.code = _
    rw [ha]
    rfl
  have sees := generate_sees keeper0_made
  refine C67_blind_false (f := stranger0) opens (by decide) ?_ ?_ (pol := policy) ?_ rfl sees.named ?_ (List.mem_singleton.2 rfl)
    memos 2
  · rw [hcode]
    exact strange_code
  · rw [hcode]
    exact sees.foreign
  · show w.asset_def.policy.toV = _
    rw [ha]
    rfl
  · rw [ho]
    decide +kernel

/-- And it takes the mint of this asset for one of its own. -/
example : ∃ s f, Follows 3 .debug carol
      ([(stranger0, .grant frzCoin), (stranger0, .grant feeRec)] ++
        [(stranger0.addUserKey bob.pubKey, .block keepBlock (47 : ZMod p) bob.pubKey 5)]) s f ∧
    ∃ ro, ∃ uid : U64, uid.val = 3 ∧ ro.asset_def = strangeAsset ∧ ro.amount = 1000 ∧ f.Lists .unfrozen bob.address (ro, uid) := by
  have fol : Follows 3 .debug carol [(stranger0, .grant frzCoin), (stranger0, .grant feeRec)] ledK
      (stranger0.addUserKey bob.pubKey) := by
    refine .user ?_ bob.pubKey
    exact .grant (h := [(stranger0, .grant frzCoin)])
      (s := ⟨[frzCoin.commitment], [], [treeRoot 3 [frzCoin.commitment], treeRoot 3 []]⟩)
      (.grant (h := []) (.start stranger0_made rfl (by decide +kernel)) (bind_ok_iff.2 ⟨_, roomy (by decide), rfl⟩))
      (bind_ok_iff.2 ⟨_, roomy (by decide), rfl⟩)
  have sees := generate_sees keeper0_made
  have asset : keepNote.mint_asset_def = keepAsset := (C18_fields keepNote_eq).2.1
  have hv : viewer.pubKey = keepNote.mint_asset_def.policy.viewer_pk := by rw [asset]; rfl
  have hn : keepNote.mint_asset_def.policy.viewer_pk ≠ 0 := by rw [asset]; exact sees.named
  have hr : keepNote.mint_asset_def.policy.reveal_map[0] = true ∧ keepNote.mint_asset_def.policy.reveal_map[2] = true ∧
      keepNote.mint_asset_def.policy.reveal_map[3] = true := by rw [asset]; exact ⟨sees.owner.1, sees.amount, sees.blind⟩
  obtain ⟨s', hs'⟩ := keep_inserted
  obtain ⟨f, h1, h2⟩ := C67_scans_partial fol (txns := keepBlock) (uid := 2) (time := 5) keep_valid hs' rfl
    (by
      intro t ht
      obtain rfl := List.mem_singleton.1 ht
      rfl)
    (by
      intro t ht
      obtain rfl := List.mem_singleton.1 ht
      obtain ⟨x, g1, g2, g3, g4⟩ := mint_opens keep_opens hv hn (owner := bob.address) rfl hr
      exact ⟨x, ⟨keepNote.mint_amount, strangeAsset, bob.pubKey, .unfrozen, _⟩, g1, ⟨g2, g3, g4, rfl, rfl⟩, rfl⟩)
  have hfv : f.viewer = stranger0.viewer := (Freezer.scanBlock_ok h1).1.viewer
  have hat : ∀ {t m pos}, At (events ([(stranger0, Seen.grant frzCoin), (stranger0, .grant feeRec)] ++
      [(stranger0.addUserKey bob.pubKey, .block keepBlock (47 : ZMod p) bob.pubKey 5)])) t m pos → t = .mint keepNote := fun a =>
    (keep_at (h := [.grant frzCoin, .grant feeRec]) (by simp) rfl a).1
  obtain ⟨ro, uid, q1, q2, q3, q4, q5, -⟩ := C67_foreign_false h2 keep_opens (by rw [hfv]; exact hv) hn (owner := bob.address) rfl hr
    (by
      rw [asset, hfv]
      exact fun e => strange_code (congrArg AssetDefinition.code e))
    (pos := 2) (memos := [keepMemo]) ⟨[.grant frzCoin, .grant feeRec], keepBlock, _, _, _, [], [], [], rfl, rfl, rfl⟩
  refine ⟨s', f, h2, ro, uid, q1, by rw [q2, hfv]; rfl, by rw [q3, (C18_fields keepNote_eq).1]; rfl,
    q5.resolve_right ?_⟩
  rintro ⟨n, m, pos, a, -⟩
  cases hat a

/-- other blinding factors -/
def frzRand2 : FreezerRand := { frzRand with note := { frzRand.note with blinds := fun i => (i : ZMod p) + 90 } }

/-- the change of the request -/
def keepChg : RecordOpening := ⟨93, AssetDefinition.native, carol.pubKey, .unfrozen, (71 : ZMod p)⟩

theorem keepChg_ne : keepFee.fee_chg_ro.commitment ≠ keepChg.commitment := by decide +kernel

/-- the leaves after a coin for Bob -/
def treeP : List F := treeK ++ [keepFee.fee_chg_ro.commitment, keepRec.commitment] ++
  [(feeRecord bob.pubKey 7 (47 : ZMod p)).commitment] ++ [bobs.commitment]
/-- Bob pays the record to Alice. -/
def payIn : List TransferNoteInput := [⟨bobs, ⟨treePath 3 treeP 5, treeRoot 3 treeP, 5⟩, bob, none⟩,
  ⟨keepRec, ⟨treePath 3 treeP 3, treeRoot 3 treeP, 3⟩, bob, none⟩]
def payOut : List RecordOpening := [⟨57, AssetDefinition.native, bob.pubKey, .unfrozen, (46 : ZMod p)⟩,
  ⟨1000, keepAsset, alice.pubKey, .unfrozen, (50 : ZMod p)⟩]
noncomputable def payPk : TransferProvingKey := ⟨.transfer 2 2 3, 2, 2, 3⟩
noncomputable def payVk : TransferVerifyingKey := ⟨.transfer 2 2 3, 2, 2, 3⟩

theorem pay_keys : transferPreprocess 2 2 3 = .ok (payPk, payVk) := rfl
theorem pay_isOk : isOk (TransferNote.generate .release rng payIn payOut payPk 800 []) = true := by decide +kernel

noncomputable def payNote : TransferNote := (okVal (TransferNote.generate .release rng payIn payOut payPk 800 []) pay_isOk).1
noncomputable def paySk : Fr := (okVal (TransferNote.generate .release rng payIn payOut payPk 800 []) pay_isOk).2

theorem payNote_eq : TransferNote.generate .release rng payIn payOut payPk 800 [] = .ok (payNote, paySk) := okVal_eq2 _ pay_isOk

theorem pay_facts : payNote.aux_info.merkle_root = treeRoot 3 treeP ∧ payNote.aux_info.valid_until = 800 ∧
    payNote.inputs_nullifiers = [ownNullifier bob (bobs, 5), keeper1.nullifier (keepRec, 3)] ∧
    payNote.output_commitments.length = 2 ∧
    [ownNullifier bob (bobs, 5), keeper1.nullifier (keepRec, 3)].Nodup ∧
    ownNullifier alice (feeRec, 1) ∉ [ownNullifier bob (bobs, 5), keeper1.nullifier (keepRec, 3)] := by decide +kernel

attribute [irreducible] payNote paySk

theorem keep_leaves {s : LedgerState} (hs : ledK.insertBlock 3 ⟨keepBlock.map (·.1), (47 : ZMod p), bob.pubKey⟩ = .ok s) :
    s.leaves ++ [bobs.commitment] = treeP := by
  obtain ⟨fee, hf, e1, -⟩ := LedgerState.insertBlock_ok hs
  have hfee : fee = 7 := by
    have h2 : keepNote.aux_info.fee = 7 := (C18_fields keepNote_eq).2.2.2.2.1
    have hf : calculateFee [.mint keepNote] = .ok fee := hf
    unfold calculateFee at hf
    rw [show [TransactionNote.mint keepNote].map TransactionNote.fee = [keepNote.aux_info.fee] from rfl, h2] at hf
    exact (Except.ok.inj hf).symm
  rw [e1, hfee]
  simp only [keepBlock, List.map_cons, List.map_nil, List.flatMap_cons, List.flatMap_nil, List.append_nil]
  show treeK ++ [keepNote.chg_comm, keepNote.mint_comm] ++ _ ++ _ = _
  rw [(C18_fields keepNote_eq).2.2.1, (C18_fields keepNote_eq).2.2.2.1]
  rfl

theorem keep_nullifiers {s : LedgerState} (hs : ledK.insertBlock 3 ⟨keepBlock.map (·.1), (47 : ZMod p), bob.pubKey⟩ = .ok s) :
    s.leaves.length = 5 ∧ ∀ x, x ∈ s.nullifiers → x = ownNullifier alice (feeRec, 1) := by
  obtain ⟨fee, -, e1, -, e3, -⟩ := LedgerState.insertBlock_ok hs
  refine ⟨by rw [e1]; rfl, fun x hx => ?_⟩
  rcases (e3 x).1 hx with h | h
  · simp only [keepBlock, List.map_cons, List.map_nil, List.flatMap_cons, List.flatMap_nil, List.append_nil] at h
    rw [← keep_nullifier]
    exact List.mem_singleton.1 h
  · cases h

/-- After two requests in a row, with different random choices, the first note is accepted, and then the freezer's record is
not the one on the ledger. -/
example : ∃ s f f1 f2 note memos sig note' memos' sig', Follows 3 .debug carol histK' s f ∧
    f.freezeUser 3 s frzRand .unfrozen bob.address 7 = .ok (f1, note, memos, sig) ∧
    f1.freezeUser 3 s frzRand2 .unfrozen bob.address 7 = .ok (f2, note', memos', sig') ∧
    ∃ s' f3, Follows 3 .debug carol (histK' ++ [(f2, .block [(.freeze note, memos)] (47 : ZMod p) bob.pubKey 6)]) s' f3 ∧
      ∃ u : U64, s'.leaves[u.val]? = some (flipped frzRand 0 (keepRec, 3)).commitment ∧
        (f3.Lists .frozen bob.address (flipped frzRand2 0 (keepRec, 3), u) ∨
          Taken (histK' ++ [(f2, .block [(.freeze note, memos)] (47 : ZMod p) bob.pubKey 6)])
            (f3.nullifier (flipped frzRand2 0 (keepRec, 3), u))) := by
  obtain ⟨s, f, hs, fol, hl, hk, hv, hw, idle⟩ := keep_after
  obtain ⟨truthful, matched⟩ := keep_truthful fol hv
  obtain ⟨hlen, hnul⟩ := keep_nullifiers hs
  have unused := keep_unused
  simp only [List.all_cons, List.all_nil, Bool.and_true, Bool.and_eq_true, decide_eq_true_eq] at unused
  obtain ⟨u1, u2, u3, u4⟩ := unused
  have hold : ∀ x, f.wallet.Holds x → x = (frzCoin, 0) := fun x hx => keep_received x (C59_sound hw x hx).1
  have hcoin : f.wallet.Holds (frzCoin, 0) :=
    (C59_told hw frzCoin 0 (by simp [seenK])).resolve_right (fun h => u1 (hnul _ h))
  have hfn : f.nullifier = keeper1.nullifier := by
    unfold Freezer.nullifier
    rw [hk]
  obtain ⟨f1, note, memos, sig, h1, -, -, valid⟩ := C67_accepted_partial Toy.complete Toy.batch fol truthful matched hl
    frz_owners.1.2 (by
      intro x hx hn
      obtain rfl := List.mem_singleton.1 hx
      rw [hfn] at hn
      exact u2 (hnul _ hn)) hw keep_apart frzRand (fee := 7)
    (fun x hx _ => by rw [hold x hx]; rfl) ⟨_, hcoin, rfl, by decide⟩ frz_owners.2
    (fun x hx _ => by rw [hold x hx, hfn]; exact keep_once) ⟨fun h => u3 (hnul _ h), fun h => u4 (hnul _ h)⟩ ⟨_, rfl⟩
    (fun i o ho => ⟨_, rfl⟩)
  obtain ⟨records, coin, chg, hr, fr, -, hw1, ⟨s1, s2, -, s3⟩, -⟩ := C64_did hw h1
  rw [hl] at hr
  cases hr
  obtain rfl : coin = (frzCoin, 0) := hold _ fr.held.1
  obtain rfl : chg = keepChg := by
    obtain ⟨a, ad, pk, fl, bl⟩ := chg
    obtain ⟨c1, c2, c3, c4⟩ := fr.change
    have c5 : 100 = a.val + 7 := fr.fee_value
    dsimp only at c1 c2 c3 c4
    rw [c1, c2, c3, c4, show a = 93 from Fin.ext (show a.val = 93 by omega)]
    rfl
  have fol1 := fol.froze h1
  have hfn1 : f1.nullifier = keeper1.nullifier := by rw [← hfn]; exact funext (nullifier_congr s1)
  have hl1 : mapGet bob.address (f1.shelf .unfrozen) = some [(keepRec, 3)] := by rw [s3]; exact hl
  have hat : ∀ {t m pos}, At (seenK ++ [.spending (frzCoin, 0), .expecting keepChg]) t m pos → At seenK t m pos := by
    intro t m pos a
    rw [show seenK ++ [.spending (frzCoin, 0), .expecting keepChg] = seenK ++ [.spending (frzCoin, 0)] ++ [.expecting keepChg] by simp]
      at a
    exact (At_event (by intros; simp)).1 ((At_event (by intros; simp)).1 a)
  have hrec : ∀ x, Received carol (seenK ++ [.spending (frzCoin, 0), .expecting keepChg]) x → x = (frzCoin, 0) := by
    intro x hx
    cases hx with
    | told mem => exact keep_received _ (.told (by simpa using mem))
    | memo a o m op p => exact keep_received _ (.memo (hat a) o m op p)
    | change wt a o p =>
      exfalso
      rename_i t ms pos chg uid
      obtain ⟨e1, -⟩ := @keep_at [.grant frzCoin, .grant feeRec, .told frzCoin 0] (by simp) rfl _ _ _ (hat a)
      have hc : chg = keepChg := by simpa [seenK] using wt
      rw [e1, hc] at o
      have o : keepNote.chg_comm = keepChg.commitment := Option.some.inj o
      rw [(C18_fields keepNote_eq).2.2.2.1] at o
      exact keepChg_ne o
  have apart1 : Apart carol (seenK ++ [.spending (frzCoin, 0), .expecting keepChg]) :=
    ⟨fun x y hx hy _ => (hrec x hx).trans (hrec y hy).symm, fun x hx t m pos a hp => by
      have hp' := hp
      rw [hrec x hx] at hp ⊢
      exact keep_apart.past _ (.told (by simp [seenK])) t m pos (hat a) hp⟩
  have hold1 : ∀ x, f1.wallet.Holds x → x = (frzCoin, 0) := fun x hx => hrec x (C59_sound hw1 x hx).1
  have hcoin1 : f1.wallet.Holds (frzCoin, 0) :=
    (C59_told hw1 frzCoin 0 (by simp [seenK])).resolve_right (fun h => u1 (hnul _ h))
  obtain ⟨f2, note', memos', sig', h2, -⟩ := C67_accepted_partial Toy.complete Toy.batch fol1 (by rw [s2]; exact truthful) matched hl1
    frz_owners.1.2 (by
      intro x hx hn
      obtain rfl := List.mem_singleton.1 hx
      rw [hfn1] at hn
      exact u2 (hnul _ hn)) hw1 apart1 frzRand2 (fee := 7)
    (fun x hx _ => by rw [hold1 x hx]; rfl) ⟨_, hcoin1, rfl, by decide⟩ frz_owners.2
    (fun x hx _ => by rw [hold1 x hx, hfn1]; exact keep_once) ⟨fun h => u3 (hnul _ h), fun h => u4 (hnul _ h)⟩ ⟨_, rfl⟩
    (fun i o ho => ⟨_, rfl⟩)
  have hl4 : note.output_commitments.length = 4 := by rw [fr.outputs]; rfl
  have hins : ∃ s', s.insertBlock 3 ⟨[.freeze note], (47 : ZMod p), bob.pubKey⟩ = .ok s' := by
    have hroom : ∀ n, n ≤ 10 → Room 3 s n := fun n hn =>
      ⟨by rw [hlen]; norm_num; omega, by rw [hlen]; norm_num; omega⟩
    have hins := (C52_partial (d := 3) (b := ⟨[.freeze note], (47 : ZMod p), bob.pubKey⟩) (s := s) (hroom 0 (by omega))).1.2 ⟨by
        show Room 3 s ((note.output_commitments.length + 0) + 1)
        rw [hl4]
        exact hroom 5 (by omega), by simp⟩
    exact ⟨_, C52_same.2 (Prod.ext rfl hins)⟩
  obtain ⟨s', hs'⟩ := hins
  obtain ⟨f3, h3, fol3⟩ := C67_scans_partial (fol1.froze h2) (txns := [(.freeze note, memos)]) (time := 6) (uid := 5) (valid 6) hs'
    hlen.symm
    (by
      intro t ht
      obtain rfl := List.mem_singleton.1 ht
      show note.output_commitments.length = memos.length + 1
      rw [hl4, fr.memos.1]
      rfl)
    (by
      intro t ht
      obtain rfl := List.mem_singleton.1 ht
      show note.input_nullifiers.length ≤ note.output_commitments.length
      rw [hl4, fr.nullifiers]
      rfl)
  obtain ⟨u, g1, g2, -⟩ := C67_twice_false fol h1 h2 hl (j := 0) (x := (keepRec, 3)) rfl (by decide +kernel)
    (txns := [(.freeze note, memos)]) (List.mem_singleton.2 rfl) (valid 6) hs' hlen.symm h3
  exact ⟨s, f, f1, f2, note, memos, sig, note', memos', sig', fol, h1, h2, s', f3, fol3, u, g1, g2⟩

/-- When Bob has paid Alice, the freezer still lists Bob's old record, and can do nothing about Bob any more. -/
example (memo : Toy.E.AeadCt) : ∃ s f h, Follows 3 .debug carol h s f ∧ f.Lists .unfrozen bob.address (keepRec, 3) ∧
    f.nullifier (keepRec, 3) ∈ s.nullifiers ∧ ∀ rng fee f' note memos sig,
      f.freezeUser 3 s rng .unfrozen bob.address fee = .ok (f', note, memos, sig) →
      validateTxnsBatch 3 s [.freeze note] 7 ≠ .ok () := by
  obtain ⟨s, f, hs, fol, hl, hk, hv, hw, idle⟩ := keep_after
  obtain ⟨hlen, hnul⟩ := keep_nullifiers hs
  obtain ⟨p1, p2, p3, p4, p5, p6⟩ := pay_facts
  have hfn : f.nullifier = keeper1.nullifier := by
    unfold Freezer.nullifier
    rw [hk]
  have fol1 := (fol.user alice.pubKey).grant (ro := bobs) (bind_ok_iff.2 ⟨_, roomy (by omega), rfl⟩)
  set s1 : LedgerState := LedgerState.storeRoot 3 { s with leaves := s.leaves ++ [bobs.commitment] } with hs1
  have valid : validateTxnsBatch 3 s1 [.transfer payNote] 6 = .ok () := by
    have h := validate_made Toy.complete Toy.batch (d := 3) (s := s1) (time := 6)
      (ts := [⟨.transfer payNote, payIn.map (fun i => (i.ro, i.acc)), payOut⟩]) (by simp)
      (by
        intro t ht
        obtain rfl := List.mem_singleton.1 ht
        exact .transfer pay_keys payNote_eq)
      (by
        intro t ht
        obtain rfl := List.mem_singleton.1 ht
        show 6 ≤ payNote.aux_info.valid_until
        rw [p2]
        decide)
      (by
        intro t ht
        obtain rfl := List.mem_singleton.1 ht
        show payNote.aux_info.merkle_root ∈ _
        rw [p1, ← keep_leaves hs]
        exact List.mem_cons_self)
      (by
        show (payNote.inputs_nullifiers ++ []).Nodup
        rw [List.append_nil, p3]
        exact p5)
      (by
        intro t ht x hx hn
        obtain rfl := List.mem_singleton.1 ht
        have hx : x ∈ payNote.inputs_nullifiers := hx
        rw [hnul x hn, p3] at hx
        exact p6 hx)
    exact h
  have hlen1 : s1.leaves.length = 6 := by
    rw [hs1]
    show (s.leaves ++ _).length = 6
    rw [List.length_append, hlen]
    rfl
  have hins : ∃ s', s1.insertBlock 3 ⟨[.transfer payNote], (47 : ZMod p), bob.pubKey⟩ = .ok s' := by
    have hroom : ∀ n, n ≤ 10 → Room 3 s1 n := fun n hn =>
      ⟨by rw [hlen1]; norm_num; omega, by rw [hlen1]; norm_num; omega⟩
    have hins := (C52_partial (d := 3) (b := ⟨[.transfer payNote], (47 : ZMod p), bob.pubKey⟩) (s := s1)
      (hroom 0 (by omega))).1.2 ⟨by
        show Room 3 s1 ((payNote.output_commitments.length + 0) + 1)
        rw [p4]
        exact hroom 3 (by omega), by simp⟩
    exact ⟨_, C52_same.2 (Prod.ext rfl hins)⟩
  obtain ⟨s', hs'⟩ := hins
  obtain ⟨f', h1, fol'⟩ := C67_scans_partial fol1 (txns := [(.transfer payNote, [memo])]) (time := 6) (uid := 6) valid hs'
    hlen1.symm
    (by
      intro t ht
      obtain rfl := List.mem_singleton.1 ht
      exact p4)
    (by
      intro t ht
      obtain rfl := List.mem_singleton.1 ht
      refine C67_legible_transfer (follows_sees fol1) payNote_eq (by decide) (by decide) ⟨?_, payIn[1], ?_, ?_⟩ (by decide) ?_
        ?_ ?_
      · rw [show (f.addUserKey alice.pubKey).viewer = keeper1.viewer from hv]
        exact fun e => (follows_sees followsK).real (congrArg AssetDefinition.code e)
      · exact List.mem_singleton.2 rfl
      · rw [show (f.addUserKey alice.pubKey).viewer = keeper1.viewer from hv]
        rfl
      · decide +kernel
      · intro i hi _
        obtain rfl := List.mem_singleton.1 hi
        exact frz_owners.1.2
      · intro o ho
        obtain rfl := List.mem_singleton.1 ho
        show mapGet alice.pubKey.address (mapSet alice.pubKey.address alice.pubKey f.users) = _
        rw [mapGet_set, if_pos rfl])
  have hfn' : f'.nullifier = keeper1.nullifier := by
    rw [← hfn]
    exact funext (nullifier_congr (Freezer.scanBlock_ok h1).1.keypair)
  obtain ⟨g1, g2⟩ := C67_stale_false fol' (f0 := f.addUserKey alice.pubKey) (txns := [(.transfer payNote, [memo])])
    (List.mem_append_right _ (List.mem_singleton.2 rfl)) (flag := .unfrozen) (user := bob.address) (x := (keepRec, 3))
    ⟨_, hl, List.mem_singleton.2 rfl⟩ (List.mem_singleton.2 rfl) (by intro n h; cases h)
    (by
      show f'.nullifier _ ∈ payNote.inputs_nullifiers
      rw [hfn', p3]
      simp)
  refine ⟨s', f', _, fol', g1, ?_, fun rng fee f'' note memos sig ok => g2 rng fee f'' note memos sig ok 3 _ 7 (List.mem_singleton.2 rfl)⟩
  obtain ⟨_, -, -, -, e3, -⟩ := LedgerState.insertBlock_ok hs'
  refine (e3 _).2 (.inl ?_)
  show _ ∈ payNote.inputs_nullifiers ++ []
  rw [hfn', p3]
  simp

end Cap.Examples
