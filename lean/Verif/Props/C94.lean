/-
C94: a record under an issuer's credentials is moved only by an owner whom the issuer has admitted.

status: partial
note: FALSE of the code. C94_shown_partial: whatever anybody submits, whoever moves as its owner a record whose policy names a credential issuer does so by a transfer and shows a signed credential of eight attributes that has not expired at the time of the block. C94_partial: with the check that is missing in the circuit (issuer of the credential = issuer in the policy, user of the credential = owner of the record), the credential is one of the policy's issuer for the owner. C94_honest: honest users pass that check. C94_false: without it, in every state the reference ledger can reach, whoever owns records of an asset under credentials pays with them, with the library's own functions, by a credential they signed themselves with any key and for anybody. Completeness and batch correctness of the SNARK are assumed where notes are accepted.
-/
import Verif.Props.C92
import Verif.Props.C68
import Verif.Props.C73
import Verif.Props.C04

namespace Cap

open Spec

variable [E : CapEnv] [S : CapExt]

namespace Spec

omit S in
/-- a credential of eight attributes with a valid signature of the issuer it names, not expired at the given time -/
structure ValidCredential (c : CredV) (time : U64) : Prop where
  attributes : c.attrs.length = 8
  signed : E.schnorrVerify c.creator_pk ([c.expiry, c.user_addr.1, c.user_addr.2] ++ c.attrs) c.cred = true
  unexpired : time.val ≤ c.expiry.val

/-- Somebody moves the record `ro` by the transaction `o`, as its owner, and the assignment contains the credential `c` for
this input. -/
def MovedWith (o : Opening) (x : Spend) (c : CredV) : Prop :=
  ∃ n w, o = .transfer n w ∧ ∃ i ∈ w.inputs, i.ro = x.ro ∧ i.acc = x.acc ∧ i.addr_secret = x.sk ∧ i.cred = c

/-- The missing check: a credential is one of the issuer that the policy names, for the owner of the record. -/
def Opening.CredentialsChecked : Opening → Prop
  | .transfer _ w => ∀ i ∈ w.inputs, i.ro.policy.cred_pk ≠ neutral →
      i.cred.creator_pk = i.ro.policy.cred_pk ∧ i.cred.user_addr = i.ro.owner_addr
  | _ => True

end Spec

/-- every step of a run was applied to some state -/
theorem run_step {d : Fin 256} {e : Event} : ∀ {h : List Event} {s0 s : LedgerState}, runFrom d s0 h = .ok s → e ∈ h →
    ∃ s1 s2, e.apply d s1 = .ok s2
  | [], _, _, _, he => by cases he
  | e' :: h, s0, s, ok, he => by
    rw [runFrom, bind_ok_iff] at ok
    obtain ⟨s1, h1, h2⟩ := ok
    rcases List.mem_cons.1 he with rfl | he
    · exact ⟨s0, s1, h1⟩
    · exact run_step h2 he

/-- **Some credential.**  Whatever anybody submits: whoever moves, as its owner, a record whose policy names a credential
issuer, does so by a transfer, and shows a signed credential that has not expired at the time of the block. -/
theorem C94_shown_partial {d : Fin 256} {h : List Step} {s : LedgerState} (ok : run d (h.map Step.event) = .ok s)
    (sat : AllSatisfied d h) (hashes : NoCollisionV d (everCreated h) (everSpent h)) {u : ℕ} {r : RecordV}
    (stands : (everCreated h)[u]? = some r) {ro : RecordOpening} (reads : Reads ro r)
    (real : ro.asset_def.code ≠ dummyCode) (issuer : ro.asset_def.policy.cred_pk ≠ 0)
    {txns : List Opening} {blind : F} {who : UserPubKey} {time : U64} (mem : .block txns blind who time ∈ h) :
    ∀ o ∈ txns, ∀ x ∈ o.realSpends, x.acc.uid = (u : F) → x.who = .user →
      ∃ c, MovedWith o x c ∧ ValidCredential c time := by
  intro o ho x hx hu hw
  obtain ⟨hr, -⟩ := C73_spender ok sat hashes stands reads real _ mem o ho x hx hu
  have hsat := sat _ mem o ho
  have hxs := (mem_realSpends.1 hx).1
  have hp : x.ro.policy.cred_pk ≠ neutral := by
    rw [← (reads_iff.1 hr).2.2.2.2.1]
    exact fun h => issuer (xy_eq_neutral.1 h)
  cases o with
  | transfer n w =>
    obtain ⟨i, hi, rfl⟩ := List.mem_map.1 hxs
    obtain ⟨h1, h2, h3, -⟩ := C04_partial hsat hi hp
    refine ⟨i.cred, ⟨n, w, rfl, i, hi, rfl, rfl, rfl, rfl⟩, h2, h1, le_trans ?_ h3⟩
    obtain ⟨s1, s2, happ⟩ := run_step ok (List.mem_map_of_mem mem)
    rw [Step.event, Event.apply, bind_ok_iff] at happ
    obtain ⟨⟨⟩, valid, -⟩ := happ
    exact unexpired valid (by
      rw [List.map_map]
      exact List.mem_map.2 ⟨_, ho, rfl⟩)
  | mint n w =>
    obtain rfl := List.mem_singleton.1 hxs
    exact absurd hsat.sat.fee_policy.2.1 hp
  | freeze n w =>
    rcases List.mem_cons.1 hxs with rfl | hx'
    · obtain ⟨v, -, -, hf⟩ := hsat
      exact absurd hf.fee_policy.2.1 hp
    · obtain ⟨i, hi, rfl⟩ := List.mem_map.1 hx'
      cases hw

/-- **With the missing check.**  If the credentials in the transfers of a history are checked against policy and owner, the
credential is one of the policy's issuer, for the owner of the record. -/
theorem C94_partial {d : Fin 256} {h : List Step} {s : LedgerState} (ok : run d (h.map Step.event) = .ok s)
    (sat : AllSatisfied d h) (hashes : NoCollisionV d (everCreated h) (everSpent h))
    (checked : ∀ e ∈ h, ∀ o ∈ e.txns, o.CredentialsChecked) {u : ℕ} {r : RecordV}
    (stands : (everCreated h)[u]? = some r) {ro : RecordOpening} (reads : Reads ro r)
    (real : ro.asset_def.code ≠ dummyCode) (issuer : ro.asset_def.policy.cred_pk ≠ 0)
    {txns : List Opening} {blind : F} {who : UserPubKey} {time : U64} (mem : .block txns blind who time ∈ h) :
    ∀ o ∈ txns, ∀ x ∈ o.realSpends, x.acc.uid = (u : F) → x.who = .user →
      ∃ c, MovedWith o x c ∧ ValidCredential c time ∧ c.creator_pk = E.xy ro.asset_def.policy.cred_pk ∧
        c.user_addr = E.xy ro.pub_key.address := by
  intro o ho x hx hu hw
  obtain ⟨c, hm, hv⟩ := C94_shown_partial ok sat hashes stands reads real issuer mem o ho x hx hu hw
  obtain ⟨hr, -⟩ := C73_spender ok sat hashes stands reads real _ mem o ho x hx hu
  obtain ⟨-, -, h3, -, h5, -⟩ := reads_iff.1 hr
  refine ⟨c, hm, hv, ?_⟩
  obtain ⟨n, w, rfl, i, hi, h1, -, -, rfl⟩ := hm
  have hp : i.ro.policy.cred_pk ≠ neutral := by
    rw [h1, ← h5]
    exact fun h => issuer (xy_eq_neutral.1 h)
  obtain ⟨c1, c2⟩ := checked _ mem _ ho i hi hp
  exact ⟨by rw [c1, h1, h5], by rw [c2, h1, h3]⟩

/-- **Honest users pass the missing check.**  A note the library makes with credentials of the right issuers for the right
owners is one that passes it. -/
theorem C94_honest {a c : ℕ} {d : Fin 256} {pk : TransferProvingKey} {vk : TransferVerifyingKey} {b : Build}
    {rng : TransferRand} {inputs : List TransferNoteInput} {outputs : List RecordOpening} {valid_until : U64}
    {extra : List Byte} {n : TransferNote} {sk : Fr} (keys : transferPreprocess a c d = .ok (pk, vk))
    (gen : TransferNote.generate b rng inputs outputs pk valid_until extra = .ok (n, sk))
    (creds : ∀ i ∈ inputs, i.ro.asset_def.policy.cred_pk ≠ 0 → ∀ c, i.cred = some c →
      c.creator_pk = i.ro.asset_def.policy.cred_pk ∧ c.user_addr = i.ro.pub_key.address) :
    ∃ w, OpensTxn d.val ⟨.transfer n, inputs.map (fun i => (i.ro, i.acc)), outputs⟩ (.transfer n w) ∧
      (Opening.transfer n w).CredentialsChecked := by
  obtain ⟨w, pub, h⟩ := TransferNote.generate_ok.1 gen
  refine ⟨w.toV, transfer_opens keys h, fun i hi hp => ?_⟩
  obtain ⟨-, -, -, h4⟩ := newUnchecked_ok.1 h.witness
  obtain ⟨y, hy, rfl⟩ := List.mem_map.1 hi
  obtain ⟨x, hx, hxy⟩ : ∃ x ∈ inputs, inputSecretOf x = .ok y := by
    clear hi hp creds gen h
    generalize w.input_secrets = l at h4 hy
    induction h4 with
    | nil => cases hy
    | cons h1 _ ih =>
      rcases List.mem_cons.1 hy with rfl | hy
      · exact ⟨_, List.mem_cons_self, h1⟩
      · obtain ⟨x, hx, hxy⟩ := ih hy
        exact ⟨x, List.mem_cons_of_mem _ hx, hxy⟩
  obtain ⟨-, q2, -, q4⟩ := inputSecretOf_ok.1 hxy
  have hk : x.ro.asset_def.policy.cred_pk ≠ 0 := by
    intro hz
    refine hp ?_
    show E.xy y.ro.asset_def.policy.cred_pk = _
    rw [q2, hz]
    exact xy_eq_neutral.2 rfl
  rw [if_neg hk] at q4
  obtain ⟨c1, c2⟩ := creds x hx hk _ q4
  show E.xy y.cred.creator_pk = E.xy y.ro.asset_def.policy.cred_pk ∧ E.xy y.cred.user_addr = E.xy y.ro.pub_key.address
  rw [c1, c2, q2]
  exact ⟨rfl, rfl⟩

/-- **Negation.**  In every state the reference ledger can reach: whoever owns records of an asset whose policy names a
credential issuer can pay with them, with the library's own functions, without any credential of that issuer.  They sign one
themselves, with any key and for anybody. -/
theorem C94_false (complete : SnarkComplete) (batch : SnarkBatch) {d : Fin 256} {h : List Event} {s : LedgerState}
    (ran : run d h = .ok s)
    {ad : AssetDefinition} (code : ad.code ≠ nativeCode ∧ ad.code ≠ dummyCode)
    (freezer_has_viewer : ad.policy.freezer_pk ≠ 0 → ad.policy.viewer_pk ≠ 0)
    {fee_coin : Coin} {coins : List Coin} (some_coin : coins ≠ []) (ready : ∀ c ∈ fee_coin :: coins, Ready s c)
    (native : fee_coin.ro.asset_def = AssetDefinition.native) (asset : ∀ c ∈ coins, c.ro.asset_def = ad)
    (distinct : ((fee_coin :: coins).map Coin.nullifier).Nodup)
    {outputs : List RecordOpening} {fee : Amount}
    (outs : ∀ o ∈ outputs, o.asset_def = ad ∧ o.freeze_flag = .unfrozen)
    (balanced : total (coins.map (·.ro)) = total outputs) (covers : fee.val ≤ fee_coin.ro.amount.val)
    (small : fee_coin.ro.amount.val + total (coins.map (·.ro)) < 2 ^ 127)
    {pk : TransferProvingKey} {vk : TransferVerifyingKey}
    (keys : transferPreprocess (coins.length + 1) (outputs.length + 1) d = .ok (pk, vk))
    {valid_until time : U64} (timely : time ≤ valid_until)
    (limits : Limits valid_until ((fee_coin.feeInput d.val s).toTransferInput :: coins.map (Coin.input d.val s)) ad)
    (space : Room d.val s (outputs.length + 2))
    -- the key that signs, and what it signs
    (own : Fr) (anybody : Pt) {attrs : List IdentityAttribute} (eight : attrs.length = 8)
    (b : Build) (chg_blind : F) (rng : TransferRand) (extra : List Byte) (blind : F) (who : UserPubKey) :
    ∃ cr, ExpirableCredential.create anybody attrs valid_until own = .ok cr ∧ cr.creator_pk = smulFr own E.gen ∧
      cr.user_addr = anybody ∧
      ∃ info chg n sk, TxnFeeInfo.new chg_blind (fee_coin.feeInput d.val s) fee = .ok (info, chg) ∧
        TransferNote.generateNonNative b rng (coins.map (fun c => { c.input d.val s with cred := some cr })) outputs info
          valid_until pk extra = .ok (n, sk) ∧
        ∃ e s', e = .block [⟨.transfer n, (fee_coin :: coins).map (fun c => (c.ro, lookup d.val s c.uid)), chg :: outputs⟩]
            blind who time ∧ run d (h ++ [e]) = .ok s' := by
  obtain ⟨cr, hcr⟩ : ∃ cr, cr = (⟨anybody, attrs, valid_until, E.schnorrSign own (ExpirableCredential.msg valid_until anybody attrs),
    smulFr own E.gen⟩ : ExpirableCredential) := ⟨_, rfl⟩
  have hver : cr.verify valid_until = .ok () := by
    subst hcr
    have hs := E.schnorr_correct own (ExpirableCredential.msg valid_until anybody attrs)
    simp only [ExpirableCredential.verify, ExpirableCredential.isExpired, lt_irrefl, decide_false, Bool.false_eq_true,
      if_false, smulFr, hs]
    rfl
  have hexp : cr.expiry = valid_until := by subst hcr; rfl
  have hlen : cr.attrs.length = 8 := by subst hcr; exact eight
  refine ⟨cr, by rw [ExpirableCredential.create, if_neg (not_not.2 (show attrs.length = ATTRS_LEN from eight)), hcr], by rw [hcr], by rw [hcr], ?_⟩
  have key := C76_asset_partial complete batch ran code freezer_has_viewer (fee_coin := fee_coin)
    (coins := coins.map (fun c => { c with cred := some cr })) (by simpa using some_coin) (fun c hc => by
      rcases List.mem_cons.1 hc with rfl | hc
      · exact ready _ List.mem_cons_self
      · obtain ⟨c', hc', rfl⟩ := List.mem_map.1 hc
        obtain ⟨r1, r2, r3, r4⟩ := ready c' (List.mem_cons_of_mem _ hc')
        exact ⟨r1, r2, r3, r4⟩) native (fun c hc => by
      obtain ⟨c', hc', rfl⟩ := List.mem_map.1 hc
      exact asset c' hc') (by
      rw [List.map_cons, List.map_map]
      exact distinct) outs (by rw [List.map_map]; exact balanced) covers (by rw [List.map_map]; exact small)
    (pk := pk) (vk := vk) (by rw [List.length_map]; exact keys) (fun _ c hc => by
      obtain ⟨c', hc', rfl⟩ := List.mem_map.1 hc
      exact ⟨cr, rfl, hver, hlen⟩) ⟨limits.window, fun i hi hk c hc => ?_, ?_⟩ timely space b chg_blind rng extra blind who
  · obtain ⟨info, chg, n, sk, k1, k2, -, e, s', k3, k4⟩ := key
    rw [List.map_map] at k2
    refine ⟨info, chg, n, sk, k1, k2, e, s', ?_, k4⟩
    rw [k3, List.map_cons, List.map_map]
    rfl
  · rw [List.map_map] at hi
    rcases List.mem_cons.1 hi with rfl | hi
    · exact absurd (by
        show fee_coin.ro.asset_def.policy.cred_pk = 0
        rw [native]; rfl) hk
    · obtain ⟨c', -, rfl⟩ := List.mem_map.1 hi
      cases hc
      rw [hexp]
      omega
  · have hm : moved ((fee_coin.feeInput d.val s).toTransferInput :: (coins.map (fun c => { c with cred := some cr })).map
        (Coin.input d.val s)) = moved ((fee_coin.feeInput d.val s).toTransferInput :: coins.map (Coin.input d.val s)) := by
      simp only [moved, List.tail_cons, List.map_map]
      rfl
    rw [hm]
    refine limits.memo.imp id (Or.imp id (And.imp id (Or.imp id (fun h i hi had => ?_))))
    rw [List.tail_cons, List.map_map] at hi
    obtain ⟨c', hc', rfl⟩ := List.mem_map.1 hi
    exact h (c'.input d.val s) (List.mem_map_of_mem hc') had

end Cap

namespace Cap.Examples
open Toy Spec

/-! Alice pays with her record of the toy asset and with her credential, on the ledger on which it was granted. -/

/-- the fee information -/
def chg94 : RecordOpening := ⟨95, AssetDefinition.native, alice.pubKey, .unfrozen, 50⟩

/-- the records of the history -/
def records94 : List RecordOpening :=
  [feeRec, assetRec, chg94, outBob, outAlice, feeRecord bob.pubKey 5 (52 : ZMod p)]
/-- the spends of the history -/
noncomputable def spends94 : List (RecordOpening × AccMemberWitness) := [(feeRec, lookup 2 led0 0), (assetRec, lookup 2 led0 1)]

theorem noCollision94 : NoCollision 2 records94 spends94 := by
  refine ⟨?_, ?_, ?_, ?_, ?_⟩
  · have h : (((List.range 7).flatMap (fun k => nodeCalls ((records94.map (·.commitment)).take k) 2 0)).all (fun x =>
        (spends94.flatMap (fun s => pathCalls (E.leafHash (s.2.uid.val : F) s.1.commitment) s.2.path)).all (fun y =>
          decide (E.nodeHash x.1 x.2.1 x.2.2 = E.nodeHash y.1 y.2.1 y.2.2 → x = y)))) = true := by decide +kernel
    intro x hx y hy
    exact of_decide_eq_true (List.all_eq_true.1 (List.all_eq_true.1 h x hx) y hy)
  · have h : ((spends94.flatMap (fun s => pathCalls (E.leafHash (s.2.uid.val : F) s.1.commitment) s.2.path)).all (fun y =>
        decide (E.nodeHash y.1 y.2.1 y.2.2 ≠ (0 : ZMod p)))) = true := by decide +kernel
    intro y hy
    exact of_decide_eq_true (List.all_eq_true.1 h y hy)
  · have h : ((leafCalls (records94.map (·.commitment))).all (fun x => spends94.all (fun s =>
        decide (E.leafHash x.1 x.2 = E.leafHash (s.2.uid.val : F) s.1.commitment →
          x = ((s.2.uid.val : F), s.1.commitment))))) = true := by decide +kernel
    intro x hx y hy
    exact of_decide_eq_true (List.all_eq_true.1 (List.all_eq_true.1 h x hx) y hy)
  · decide +kernel
  · decide +kernel

theorem ready94 : ∀ c ∈ [(⟨feeRec, 0, alice, none⟩ : Coin), ⟨assetRec, 1, alice, some cred⟩], Ready led0 c := by
  have h : led0.nullifiers = [] := rfl
  intro c hc
  simp only [List.mem_cons, List.not_mem_nil, or_false] at hc
  rcases hc with rfl | rfl
  · exact ⟨rfl, rfl, rfl, by rw [h]; simp⟩
  · exact ⟨rfl, rfl, rfl, by rw [h]; simp⟩

theorem paid94 : ∃ info chg n sk, TxnFeeInfo.new 50 (Coin.feeInput 2 led0 ⟨feeRec, 0, alice, none⟩) 5 = .ok (info, chg) ∧
    TransferNote.generateNonNative .release rng [Coin.input 2 led0 ⟨assetRec, 1, alice, some cred⟩] [outBob, outAlice] info 900
      ⟨.transfer 2 3 2, 2, 3, 2⟩ [] = .ok (n, sk) ∧
    ∃ s', run 2 [.grant feeRec, .grant assetRec, .block [⟨.transfer n, [(feeRec, lookup 2 led0 0), (assetRec, lookup 2 led0 1)],
      chg :: [outBob, outAlice]⟩] 52 bob.pubKey 702] = .ok s' := by
  obtain ⟨info, chg, n, sk, h1, h2, -, e, s', he, hs⟩ := C76_asset_partial Toy.complete Toy.batch hist_start
    (ad := asset) (by decide +kernel) (by decide +kernel) (fee_coin := ⟨feeRec, 0, alice, none⟩)
    (coins := [⟨assetRec, 1, alice, some cred⟩]) (by simp) ready94 rfl (by decide +kernel)
    (by decide +kernel) (outputs := [outBob, outAlice]) (fee := 5) (by decide +kernel)
    (by decide +kernel) (by decide +kernel) (by decide +kernel) (pk := ⟨.transfer 2 3 2, 2, 3, 2⟩)
    (vk := ⟨.transfer 2 3 2, 2, 3, 2⟩) rfl (valid_until := 900) (time := 702)
    (by
      intro _ c hc
      rw [List.mem_singleton] at hc
      subst hc
      exact ⟨cred, rfl, by decide +kernel, by decide +kernel⟩)
    ⟨by decide, by
      intro i hi _ c hc
      simp only [List.map_cons, List.map_nil, List.mem_cons, List.not_mem_nil, or_false] at hi
      rcases hi with rfl | rfl
      · cases hc
      · cases hc; decide +kernel, Or.inr (Or.inr ⟨by decide +kernel, Or.inl (by decide +kernel)⟩)⟩
    (by decide) ⟨by decide, by decide⟩ .release 50 rng [] 52 bob.pubKey
  rw [he] at hs
  exact ⟨info, chg, n, sk, h1, h2, s', hs⟩

/-- All hypotheses of `C94_shown_partial` and `C94_partial`, and there is something that they speak of: the record of the
asset at position 1 is taken. -/
example : ∃ (o : Opening) (s : LedgerState) (h : List Step), h = [.grant feeRec, .grant assetRec, .block [o] 52 bob.pubKey 702] ∧
    run 2 (h.map Step.event) = .ok s ∧ AllSatisfied 2 h ∧ NoCollisionV 2 (everCreated h) (everSpent h) ∧
    (∀ e ∈ h, ∀ o ∈ e.txns, o.CredentialsChecked) ∧ (everCreated h)[1]? = some assetRec.toV ∧
    assetRec.asset_def.code ≠ (dummyCode : ZMod p) ∧ assetRec.asset_def.policy.cred_pk ≠ 0 ∧
    ∃ x ∈ o.realSpends, x.acc.uid = ((1 : ℕ) : F) ∧ x.who = .user := by
  obtain ⟨info, chg, n, sk, h1, h2, s', h3⟩ := paid94
  have hi : info = ⟨Coin.feeInput 2 led0 ⟨feeRec, 0, alice, none⟩, 5, chg94⟩ ∧ chg = chg94 := by
    have : TxnFeeInfo.new 50 (Coin.feeInput 2 led0 ⟨feeRec, 0, alice, none⟩) 5 =
      .ok (⟨Coin.feeInput 2 led0 ⟨feeRec, 0, alice, none⟩, 5, chg94⟩, chg94) := rfl
    rw [this] at h1
    cases h1
    exact ⟨rfl, rfl⟩
  obtain ⟨rfl, rfl⟩ := hi
  have hfee := (C68_asset_partial h2 List.mem_cons_self (by
    show assetRec.asset_def.code ≠ _
    decide +kernel) (by
    show assetRec.asset_def ≠ _
    decide +kernel)).1
  have hgen := (generateNonNative_ok.1 h2).2
  obtain ⟨w, ho, hchk⟩ := C94_honest (a := 2) (c := 3) (d := 2) (pk := ⟨.transfer 2 3 2, 2, 3, 2⟩) (vk := ⟨.transfer 2 3 2, 2, 3, 2⟩)
    rfl hgen (by
      intro i hi hk c hc
      simp only [List.mem_cons, List.not_mem_nil, or_false] at hi
      rcases hi with rfl | rfl
      · cases hc
      · cases hc
        exact ⟨rfl, rfl⟩)
  have hcol : collected [⟨(Opening.transfer n w).note, [], []⟩] = 5 := by
    show Fin.ofNat (2 ^ 128) (n.aux_info.fee.val + 0) = 5
    rw [hfee]
    rfl
  have hcr : everCreated [.grant feeRec, .grant assetRec, .block [.transfer n w] 52 bob.pubKey 702] =
      records94.map RecordOpening.toV := by
    show [feeRec.toV] ++ ([assetRec.toV] ++ (((Opening.transfer n w).creates ++ [] ++
      [(feeRecord bob.pubKey (collected [⟨(Opening.transfer n w).note, [], []⟩]) 52).toV]) ++ [])) = _
    rw [hcol, ho.creates]
    rfl
  have hreal : (Opening.transfer n w).realSpends.map (fun s => (s.ro, s.acc)) = spends94.map (fun x => (x.1.toV, x.2.toV)) := by
    rw [ho.real]
    have h2 : Txn.realSpends ⟨.transfer n, [(feeRec, lookup 2 led0 0), (assetRec, lookup 2 led0 1)], chg94 :: [outBob, outAlice]⟩ =
        spends94 := List.filter_eq_self.2 (show ∀ x ∈ spends94, decide (x.1.asset_def.code ≠ dummyCode) = true by decide +kernel)
    exact congrArg _ h2
  have hsp : everSpent [.grant feeRec, .grant assetRec, .block [.transfer n w] 52 bob.pubKey 702] =
      (Opening.transfer n w).realSpends := by
    show [] ++ ([] ++ (((Opening.transfer n w).realSpends ++ []) ++ [])) = _
    simp
  have hall : ∀ {P : Opening → Prop}, P (.transfer n w) →
      ∀ e ∈ [.grant feeRec, .grant assetRec, Step.block [.transfer n w] 52 bob.pubKey 702], ∀ o ∈ e.txns, P o := by
    intro P hP e he o ho
    simp only [List.mem_cons, List.not_mem_nil, or_false] at he
    rcases he with rfl | rfl | rfl
    · cases ho
    · cases ho
    · rw [List.mem_singleton.1 ho]; exact hP
  refine ⟨.transfer n w, s', _, rfl, h3, hall ho.satisfied, ?_, hall hchk, by rw [hcr]; rfl, by decide +kernel, by decide +kernel, ?_⟩
  · rw [hcr, hsp]
    exact noCollision_toV hreal noCollision94
  · have hm : (assetRec.toV, (lookup 2 led0 1).toV) ∈ (Opening.transfer n w).realSpends.map (fun s => (s.ro, s.acc)) := by
      rw [hreal]
      exact List.mem_cons_of_mem _ List.mem_cons_self
    obtain ⟨x, hx, he⟩ := List.mem_map.1 hm
    refine ⟨x, hx, by rw [(Prod.mk.inj he).2]; rfl, ?_⟩
    obtain ⟨i, -, rfl⟩ := List.mem_map.1 (mem_realSpends.1 hx).1
    rfl

/-- `C94_false`: Alice pays with a credential for Bob that she signed herself -/
example : ∃ cr, ExpirableCredential.create bob.address [1, 2, 3, 4, 5, 6, 7, 8] 900 (99 : ZMod r) = .ok cr ∧
    cr.creator_pk ≠ asset.policy.cred_pk ∧ cr.user_addr ≠ assetRec.pub_key.address ∧
    ∃ info chg n sk e s', TxnFeeInfo.new 50 (Coin.feeInput 2 led0 ⟨feeRec, 0, alice, none⟩) 5 = .ok (info, chg) ∧
      TransferNote.generateNonNative .release rng [⟨assetRec, lookup 2 led0 1, alice, some cr⟩] [outBob, outAlice] info 900
        ⟨.transfer 2 3 2, 2, 3, 2⟩ [] = .ok (n, sk) ∧
      e = .block [⟨.transfer n, [(feeRec, lookup 2 led0 0), (assetRec, lookup 2 led0 1)], chg :: [outBob, outAlice]⟩] 52
        bob.pubKey 702 ∧ run 2 ([.grant feeRec, .grant assetRec] ++ [e]) = .ok s' := by
  obtain ⟨cr, k1, k2, k3, info, chg, n, sk, h1, h2, e, s', he, hs⟩ := C94_false Toy.complete Toy.batch hist_start
    (ad := asset) (by decide +kernel) (by decide +kernel) (fee_coin := ⟨feeRec, 0, alice, none⟩)
    (coins := [⟨assetRec, 1, alice, none⟩]) (by simp) (by
      intro c hc
      simp only [List.mem_cons, List.not_mem_nil, or_false] at hc
      rcases hc with rfl | rfl
      · exact ready94 _ List.mem_cons_self
      · obtain ⟨r1, r2, r3, r4⟩ := ready94 _ (List.mem_cons_of_mem _ List.mem_cons_self)
        exact ⟨r1, r2, r3, r4⟩) rfl (by decide +kernel)
    (by decide +kernel) (outputs := [outBob, outAlice]) (fee := 5) (by decide +kernel)
    (by decide +kernel) (by decide +kernel) (by decide +kernel) (pk := ⟨.transfer 2 3 2, 2, 3, 2⟩)
    (vk := ⟨.transfer 2 3 2, 2, 3, 2⟩) rfl (valid_until := 900) (time := 702) (by decide)
    ⟨by decide, by
      intro i hi _ c hc
      simp only [List.map_cons, List.map_nil, List.mem_cons, List.not_mem_nil, or_false] at hi
      rcases hi with rfl | rfl <;> exact (nomatch hc), Or.inr (Or.inr ⟨by decide +kernel, Or.inl (by decide +kernel)⟩)⟩
    ⟨by decide, by decide⟩ (99 : ZMod r) bob.address (attrs := [1, 2, 3, 4, 5, 6, 7, 8]) rfl .release 50 rng [] 52 bob.pubKey
  refine ⟨cr, k1, ?_, ?_, info, chg, n, sk, e, s', h1, h2, he, hs⟩
  · rw [k2]
    decide +kernel
  · rw [k3]
    decide +kernel

end Cap.Examples
