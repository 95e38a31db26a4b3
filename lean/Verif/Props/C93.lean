/-
C93: what a wallet counts as coins can be paid with, and only the owner takes it away.

status: partial
note: C93_partial: a genuine native record (native code and the native policy) that a wallet holds is taken off the ledger, now or later and whatever anybody submits, only by somebody with a secret key of its owner's address. C93_honest: in histories of notes made by the library, where everything granted or minted under the native code is genuine, every record that a wallet counts under the native code is genuine. Partial because the circuits do not tie the native code to the native policy. C93_false: for every instantiation, the holder of one coin can pay it, in an accepted transfer and with a memo that opens, as a record with the native code and a policy that names the payer's own freezer key; the receiver's wallet reports the amount as native balance, every payment from it fails, and the payer freezes the record with FreezeNote::generate in an accepted block.
-/
import Verif.Props.C61
import Verif.Props.C89
import Verif.Props.C87
import Verif.Props.C75

namespace Cap

open Spec

variable [E : CapEnv] [S : CapExt]

/-- **Genuine coins.**  Whatever anybody submits: a record that a wallet holds, and whose asset definition is the native one
(code and policy), is taken off the ledger by nobody but a holder of a secret key of its owner's address. -/
theorem C93_partial {d : Fin 256} {b : Build} {before after : List Step} {s s' : LedgerState} {f : Follower}
    (ok : run d ((before ++ after).map Step.event) = .ok s') (sat : AllSatisfied d (before ++ after))
    (hashes : NoCollisionV d (everCreated (before ++ after)) (everSpent (before ++ after)))
    (follows : f.Follows d b before s) (clear : f.Clear before) {x : RecordOpening × U64} (holds : f.wallet.Holds x)
    (genuine : x.1.asset_def = AssetDefinition.native) :
    ∀ e ∈ before ++ after, ∀ o ∈ e.txns, ∀ y ∈ o.realSpends, y.acc.uid = (x.2.val : F) →
      y.who = .user ∧ y.sk.val • E.gen = x.1.pub_key.address := by
  have h1 : everCreated (before ++ after) = everCreated before ++ everCreated after := by simp [everCreated]
  have h2 : ∀ y ∈ everSpent before, y ∈ everSpent (before ++ after) := by
    intro y hy
    simp only [everSpent, List.flatMap_append, List.mem_append] at hy ⊢
    exact Or.inl hy
  rw [h1] at hashes
  have i := inv0_run before follows.run (fun e he => sat e (List.mem_append_left _ he)) (hashes.mono h2)
  rw [← h1] at hashes
  obtain ⟨r, hr, hs⟩ := held_created follows clear i holds
  rw [RecordOpening.toV_scalars] at hs
  obtain ⟨hs1, hs2⟩ := Prod.mk.inj hs
  intro e he o ho y hy hu
  cases (C73_spender ok sat hashes (u := x.2.val) (r := r) (by
    rw [h1, List.getElem?_append_left (List.getElem?_eq_some_iff.1 hr).1]; exact hr) (ro := x.1) ⟨hs1.symm, hs2.symm⟩
    (by rw [genuine]; exact native_ne_dummy) e he o ho y hy hu).2 with
  | owner who _ key => exact ⟨who, key⟩
  | freezer _ _ _ named => exact absurd (by rw [genuine]; rfl) named

/-- **Notes made by the library.**  If all notes of the history were made by the library, and whatever was granted or minted
under the native code has the native definition, then every record with the native code that a wallet holds is genuine. -/
theorem C93_honest {d : Fin 256} {b : Build} {k : UserKeyPair} {h : List Event} {seen : List Seen} {s : LedgerState}
    {w : Wallet} (ok : run d h = .ok s) (honest : Honest d h) (hashes : NoCollision d (created h) (spends h))
    (issued_native : ∀ ad ∈ defined h, ad.code = nativeCode → ad = AssetDefinition.native)
    (world : World d b k seen s w)
    (clear : ∀ x, Received k seen x → ∀ ro ∈ created h, ro.commitment = x.1.commitment →
      (ro.scalars, ro.blind) = (x.1.scalars, x.1.blind)) :
    ∀ x, w.Holds x → x.1.asset_def.code = nativeCode → x.1.asset_def = AssetDefinition.native := by
  intro x hx hc
  obtain ⟨h1, -, -, h4⟩ := C59_sound world x hx
  rw [(C44_history ok honest hashes).1, List.getElem?_map, Option.map_eq_some_iff] at h4
  obtain ⟨ro, hr, he⟩ := h4
  have hmem := List.mem_of_getElem? hr
  have hs := (C11_exact ro x.1).1 (clear x h1 ro hmem he)
  have had : ro.asset_def = x.1.asset_def := by
    cases h5 : ro.asset_def
    cases h6 : x.1.asset_def
    have a1 := hs.2.1
    have a2 := hs.2.2.2.1
    rw [h5, h6] at a1 a2
    cases a1
    cases a2
    rfl
  rw [← had] at hc ⊢
  rcases C75_honest h ok honest hashes ro hmem with h5 | h5 | h5
  · exact h5
  · exact absurd (hc.symm.trans h5) native_ne_dummy
  · exact issued_native _ h5 hc

theorem one_grant {d : Fin 256} (deep : 2 ≤ d.val) (r : RecordOpening) :
    ∃ s, run d [.grant r] = .ok s ∧ s.leaves = [r.commitment] ∧ treeRoot d.val [r.commitment] ∈ s.roots ∧ s.nullifiers = [] := by
  have h9 : 9 ≤ 3 ^ d.val := le_trans (by norm_num) (Nat.pow_le_pow_right (by norm_num) deep)
  refine ⟨⟨[r.commitment], [], [treeRoot d.val [r.commitment], treeRoot d.val []]⟩, ?_, rfl, List.mem_cons_self, rfl⟩
  refine bind_ok_iff.2 ⟨_, ?_, rfl⟩
  show LedgerState.grant d.val (LedgerState.new d.val) r = _
  unfold LedgerState.grant LedgerState.insertRecord
  rw [if_pos ⟨by simp only [LedgerState.new, LedgerState.storeRoot, List.length_nil]; omega, by
    simp [LedgerState.new, LedgerState.storeRoot]⟩]
  rfl

omit S in
theorem poison_nullifiers {d : ℕ} {coin : RecordOpening} {k : UserKeyPair} {acc : AccMemberWitness} {root : F}
    {policy : AssetPolicy} {receiver : UserPubKey} {blind blind0 : F} {f : Forgery}
    (hf : f = poison d coin k acc root policy receiver blind blind0) :
    spendNullifier f.r0 f.acc0 f.sk0 .user = k.nullify coin.asset_def.policy.freezer_pk acc.uid coin.commitment ∧
      spendNullifier f.r1 f.acc1 f.sk1 .user = E.prf (frToFq 1) [0, placeholder.commitment] := by
  subst hf
  refine ⟨spendNullifier_user _ _ _, ?_⟩
  show E.prf (deriveNullifierKeyV (frToFq 1) (E.xy 0)) [0, placeholder.commitment] = _
  rw [deriveNullifierKeyV, if_pos (by rw [E.xy_zero]; rfl)]

/-- the record that looks like a coin: the native code, and a policy that names a freezer -/
def fakeCoin (amount : Amount) (freezer : Pt) (receiver : UserPubKey) (blind : F) : RecordOpening :=
  ⟨amount, ⟨nativeCode, { AssetPolicy.default with freezer_pk := freezer }⟩, receiver, .unfrozen, blind⟩

/-- the change of the payment: nothing -/
def fakeChange (payer : UserPubKey) (blind : F) : RecordOpening := ⟨0, AssetDefinition.native, payer, .unfrozen, blind⟩

/-- **Negation.**  For every instantiation: whoever holds a coin can pay it to anybody, in an accepted transfer and with a
memo that the receiver's wallet opens, such that the wallet counts it as coins, cannot pay with it, and the payer can take it
away again at any time, with the library's own `FreezeNote::generate`. -/
theorem C93_false (complete : SnarkComplete) (batch : SnarkBatch) (b : Build) {d : Fin 256} (deep : 2 ≤ d.val)
    {pk : TransferProvingKey} {vk : TransferVerifyingKey} (keys : transferPreprocess 2 2 d = .ok (pk, vk))
    {fpk : FreezeProvingKey} {fvk : FreezeVerifyingKey} (freeze_keys : freezePreprocess 2 d = .ok (fpk, fvk))
    -- the payer and their coin
    {coin : RecordOpening} {payer : UserKeyPair} (native : coin.asset_def = AssetDefinition.native)
    (unfrozen : coin.freeze_flag = .unfrozen) (owned : coin.pub_key = payer.pubKey) (small : coin.amount.val < 2 ^ 127)
    {freezer : FreezerKeyPair} (pair : freezer.pub_key = smulFr freezer.sec_key E.gen) (set : freezer.pub_key ≠ 0)
    -- the receiver
    {k : UserKeyPair} (somebody : k.address ≠ 0) {blind blind0 : F} {rand : ℕ} {ct : E.AeadCt}
    (memo : ReceiverMemo.fromRo rand (fakeCoin coin.amount freezer.pub_key k.pubKey blind) [] = .ok ct)
    (distinct : [payer.nullify 0 0 coin.commitment, E.prf (frToFq 1) [0, placeholder.commitment],
      payer.nullify 0 1 (fakeChange payer.pubKey blind0).commitment,
      ownNullifier k (fakeCoin coin.amount freezer.pub_key k.pubKey blind, 2)].Nodup)
    (fee_blind : F) (who : UserPubKey) (time : U64) :
    ∃ (o : Opening) (s : LedgerState) (h : List Step) (f : Follower),
      h = [.grant coin, .block [o] fee_blind who time] ∧ run d (h.map Step.event) = .ok s ∧ AllSatisfied d h ∧
      f.seen = [.grant coin, .block [(o.note, [ct])] fee_blind who time] ∧ f.key = k ∧ f.Follows d b h s ∧
      f.wallet.availableFunds .debug nativeCode = .ok coin.amount ∧
      (∀ s' rng recipients fee r, f.wallet.spendNative b d s' rng recipients fee ≠ .ok r) ∧
      ∀ (chg_blind : F) (rng : FreezeRand) (fee_blind2 : F) (who2 : UserPubKey) (time2 : U64),
        ∃ info chg n sk outs e s2,
          TxnFeeInfo.new chg_blind ⟨fakeChange payer.pubKey blind0, lookup d.val s 1, payer⟩ 0 = .ok (info, chg) ∧
          FreezeNote.generate rng [⟨fakeCoin coin.amount freezer.pub_key k.pubKey blind, lookup d.val s 2, freezer⟩] info fpk =
            .ok (n, sk, outs) ∧
          e = .block [⟨.freeze n, [(fakeChange payer.pubKey blind0, lookup d.val s 1),
            (fakeCoin coin.amount freezer.pub_key k.pubKey blind, lookup d.val s 2)], chg :: outs⟩] fee_blind2 who2 time2 ∧
          run d (h.map Step.event ++ [e]) = .ok s2 ∧
          ownNullifier k (fakeCoin coin.amount freezer.pub_key k.pubKey blind, 2) ∈ s2.nullifiers := by
  obtain ⟨s1, hs1, l1, r1, n1⟩ := one_grant deep coin
  have h9 : 9 ≤ 3 ^ d.val := le_trans (by norm_num) (Nat.pow_le_pow_right (by norm_num) deep)
  have h64 : (9 : ℕ) < 2 ^ 64 := by norm_num
  obtain ⟨out, ho⟩ : ∃ out, out = fakeCoin coin.amount freezer.pub_key k.pubKey blind := ⟨_, rfl⟩
  obtain ⟨chg0, hc0⟩ : ∃ c, c = fakeChange payer.pubKey blind0 := ⟨_, rfl⟩
  rw [← ho] at memo
  rw [← ho, ← hc0] at distinct
  rw [← ho, ← hc0]
  have out_code : out.asset_def.code = nativeCode := by rw [ho]; rfl
  have out_amount : out.amount = coin.amount := by rw [ho]; rfl
  have out_mine : out.pub_key = k.pubKey := by rw [ho]; rfl
  have out_unfrozen : out.freeze_flag = .unfrozen := by rw [ho]; rfl
  have out_freezer : out.asset_def.policy.freezer_pk = freezer.pub_key := by rw [ho]; rfl
  have out_fake : out.asset_def ≠ AssetDefinition.native := by
    intro h
    rw [h] at out_freezer
    exact set out_freezer.symm
  obtain ⟨m1, m2, m3⟩ := lookup_there (d := d) (s := s1) (ro := coin) (uid := 0) ⟨by rw [l1]; show 1 ≤ _; omega, by
    rw [l1]; show 1 < _; omega⟩ (by rw [l1]; rfl)
  rw [l1] at m3
  obtain ⟨f, hf⟩ : ∃ f, f = poison d.val coin payer (lookup d.val s1 0) (treeRoot d.val [coin.commitment])
    { AssetPolicy.default with freezer_pk := freezer.pub_key } k.pubKey blind blind0 := ⟨_, rfl⟩
  have fok : f.Ok d.val := by
    rw [hf]
    exact poison_ok native unfrozen (by rw [owned]; rfl) small m1 m3 (Or.inl rfl) _ _ _
  obtain ⟨π, p1, v1⟩ := Forgery.accepted complete keys f fok
  obtain ⟨q1, q2⟩ := poison_nullifiers hf
  obtain ⟨n, hn⟩ : ∃ n, n = f.note π := ⟨_, rfl⟩
  have nul1 : n.inputs_nullifiers =
      [payer.nullify 0 0 coin.commitment, E.prf (frToFq 1) [0, placeholder.commitment]] := by
    rw [native] at q1
    rw [hn, ← q2]
    exact congrArg (· :: _) q1
  have out1 : n.output_commitments = [chg0.commitment, out.commitment] := by
    have e0 : chg0.commitment = f.o0.commitment := by
      rw [hc0, hf, fakeChange, ← owned]; exact (RecordOpening.toV_commitment _).symm
    have e1 : out.commitment = f.o1.commitment := by
      rw [ho, hf]; exact (RecordOpening.toV_commitment _).symm
    rw [hn, e0, e1]; rfl
  have root1 : n.aux_info.merkle_root = treeRoot d.val [coin.commitment] := by rw [hn, hf]; rfl
  simp only [List.nodup_cons, List.mem_cons, List.not_mem_nil, or_false, not_or] at distinct
  obtain ⟨s2, a2, l2, r2, n2⟩ := block_single batch (s := s1) (time := time) (w := f.wit) (n := n)
    (by rw [nul1, out1]; exact keys) (by rw [hn]; exact v1 _ (by rw [hf]; exact Fin.le_last _)) (by rw [root1]; exact r1)
    (by rw [nul1]; simpa using distinct.1.1) (by rw [n1]; simp)
    (by
      rw [Room, l1, out1]
      show 1 + (2 + 1) ≤ _ ∧ 1 + (2 + 1) < _
      omega) fee_blind who
  have hrun := runFrom_append.2 ⟨s1, hs1, a2⟩
  rw [l1, out1] at l2
  rw [nul1, n1] at n2
  simp only [List.mem_cons, List.not_mem_nil, or_false] at n2
  -- the wallet
  have w1 : World d b k [.grant coin] s1 (Wallet.new k) := by
    rw [run, runFrom, bind_ok_iff] at hs1
    obtain ⟨s1', g1, g2⟩ := hs1
    cases g2
    exact .grant (h := []) .start g1
  have a2' := a2
  rw [Step.event, Event.apply, bind_ok_iff] at a2'
  obtain ⟨⟨⟩, valid, inserted⟩ := a2'
  have lens : ∀ t ∈ [(TransactionNote.transfer n, [ct])], t.1.outputCommitments.length = t.2.length + 1 := by
    intro t ht
    obtain rfl := List.mem_singleton.1 ht
    show n.output_commitments.length = _
    rw [out1]; rfl
  obtain ⟨w2, recv, -, hw⟩ := C59_scans w1 (txns := [(.transfer n, [ct])]) (uid := 1) valid inserted (by rw [l1]; rfl) lens
  have opens := C35_round_trip rand out [] k ct out_mine memo
  have hat : At ([.grant coin] ++ [.block [(.transfer n, [ct])] fee_blind who time]) (.transfer n) [ct] 1 :=
    .last (n := 0) ⟨[], [], rfl, rfl⟩
  have fresh : ownNullifier k (out, 2) ∉ s2.nullifiers := by
    rw [n2]
    rintro (h | h)
    · exact distinct.1.2.2 h.symm
    · exact distinct.2.1.2 h.symm
  have holds : w2.Holds (out, 2) :=
    (C59_memo hw hat (j := 0) (rc := out.commitment) (by
      show n.output_commitments[1]? = _
      rw [out1]; rfl) rfl opens out_unfrozen rfl).resolve_right fresh
  have only : ∀ x, w2.Holds x → x = (out, 2) := by
    intro x hx
    obtain ⟨hr, -, -, -⟩ := C59_sound hw x hx
    have at_cases : ∀ {t memos pos}, At ([.grant coin] ++ [.block [(.transfer n, [ct])] fee_blind who time]) t memos pos →
        t = .transfer n ∧ memos = [ct] ∧ pos = 1 := by
      intro t memos pos ha
      rcases ha.cases with ha | ⟨txns, blind', who', time', m, h1, h2, rfl⟩
      · exfalso
        obtain ⟨before, txns, blind', who', time', after, -, -, h1, -⟩ := ha
        have : Seen.block txns blind' who' time' ∈ [Seen.grant coin] := by rw [h1]; simp
        simp at this
      · cases h1
        rcases h2.cases with ⟨h3, h4⟩ | ⟨m, -, h3⟩
        · cases h3
          exact ⟨rfl, rfl, by rw [h4]; rfl⟩
        · exact (nomatch h3.mem)
    cases hr with
    | told mem => simp at mem
    | change waiting _ _ _ => simp at waiting
    | memo ha o m op p =>
      obtain ⟨rfl, rfl, rfl⟩ := at_cases ha
      rename_i j rc c' ro' uid
      change n.output_commitments[j + 1]? = _ at o
      rw [out1] at o
      match j with
      | 0 =>
        simp only [List.getElem?_cons_succ, List.getElem?_cons_zero, Option.some.injEq] at o m
        subst o m
        rw [opens, Except.ok.injEq] at op
        subst op
        have : uid = 2 := Fin.ext p
        rw [this]
      | j + 1 => simp at o
  refine ⟨.transfer n f.wit, s2, _, ⟨k, _, w2⟩, rfl, hrun, ?_, rfl, rfl, ⟨hw, ?_⟩, ?_, ?_, ?_⟩
  · intro e he o ho
    simp only [List.mem_cons, List.not_mem_nil, or_false] at he
    rcases he with rfl | rfl
    · simp [Step.txns] at ho
    · obtain rfl := List.mem_singleton.1 ho
      rw [hn]; exact p1
  · exact .cons rfl (.cons ⟨rfl, rfl, rfl, rfl⟩ .nil)
  · refine ((C60_funds hw nativeCode [(out, 2)] (List.nodup_singleton _) (fun x => ?_)).1 coin.amount).2 (by
      rw [← out_amount]; simp)
    rw [List.mem_singleton]
    exact ⟨fun h => by rw [h]; exact ⟨holds, out_code⟩, fun h => only x h.1⟩
  · rintro s' rng recipients fee ⟨w', note, memos, sig⟩ hpay
    obtain ⟨sk, chg, x, pre, post, inputs, keys', sp⟩ := Wallet.spendNative_ok hpay
    obtain ⟨g1, g2⟩ := nativeSpend_coins hw rfl sp x List.mem_cons_self
    rw [only x g1] at g2
    exact out_fake g2
  · intro chg_blind rng fee_blind2 who2 time2
    have ready : Ready s2 ⟨chg0, 1, payer, none⟩ := by
      refine ⟨by rw [l2]; rfl, by rw [hc0]; rfl, by rw [hc0]; rfl, ?_⟩
      have hz : chg0.asset_def.policy.freezer_pk = 0 := by rw [hc0]; rfl
      show payer.nullify chg0.asset_def.policy.freezer_pk 1 chg0.commitment ∉ _
      rw [hz, n2]
      rintro (h | h)
      · exact distinct.1.2.1 h.symm
      · exact distinct.2.1.1 h.symm
    have same : (⟨out, 2, freezer⟩ : Freezable).nullifier = ownNullifier k (out, 2) := by
      have := C09_library k freezer pair set 2 out.commitment
      show freezer.nullify out.pub_key.address 2 out.commitment = k.nullify out.asset_def.policy.freezer_pk 2 out.commitment
      rw [out_freezer, this, out_mine]
      rfl
    have freezable : ReadyToFreeze s2 ⟨out, 2, freezer⟩ := by
      refine ⟨by rw [l2]; rfl, ?_, ?_, by rw [same]; exact fresh⟩
      · show out.asset_def.policy.freezer_pk ≠ 0
        rw [out_freezer]; exact set
      · show out.asset_def.policy.freezer_pk = _
        rw [out_freezer]; exact pair
    obtain ⟨info, chg, n3, sk, outs, k1, k2, -, -, k3, e, s3, k4, k5⟩ := C76_freeze_partial complete batch hrun
      (fee_coin := ⟨chg0, 1, payer, none⟩) ready (by rw [hc0]; rfl) (records := [⟨out, 2, freezer⟩]) (by simp)
      (by simpa using freezable) (by
        intro r hr
        obtain rfl := List.mem_singleton.1 hr
        show out.pub_key.address ≠ 0
        rw [out_mine]; exact somebody)
      (by
        have hz : chg0.asset_def.policy.freezer_pk = 0 := by rw [hc0]; rfl
        have : (⟨chg0, 1, payer, none⟩ : Coin).nullifier ≠ (⟨out, 2, freezer⟩ : Freezable).nullifier := by
          rw [same]
          show payer.nullify chg0.asset_def.policy.freezer_pk 1 chg0.commitment ≠ _
          rw [hz]
          exact distinct.2.2.1
        simpa using this)
      (fee := 0) (Nat.zero_le _) freeze_keys (time := time2) (by
        rw [Room, l2]
        show 4 + (1 + 2) ≤ _ ∧ 4 + (1 + 2) < _
        omega) chg_blind rng fee_blind2 who2
    refine ⟨info, chg, n3, sk, outs, e, s3, k1, k2, k4, k5, ?_⟩
    obtain ⟨s2', -, g2⟩ := runFrom_append.1 k5
    rw [k4, Event.apply, bind_ok_iff] at g2
    obtain ⟨⟨⟩, -, g3⟩ := g2
    obtain ⟨-, -, -, -, g4, -⟩ := LedgerState.insertBlock_ok g3
    refine (g4 _).2 (Or.inl ?_)
    show _ ∈ [TransactionNote.freeze n3].flatMap TransactionNote.nullifiers
    rw [List.flatMap_singleton]
    show _ ∈ n3.input_nullifiers
    rw [k3, ← same]
    simp

end Cap

namespace Cap.Examples
open Toy Spec

/-- Alice's wallet before the block of C89 in which she pays -/
noncomputable def alice93 : Follower := ⟨alice, seen0 ++ [.told feeRec 0], walletA⟩

/-- the granted records, before the block -/
noncomputable def before93 : List Step := [.grant feeRec, .grant assetRec]

theorem received93 {x : RecordOpening × U64} (h : Received alice (seen0 ++ [.told feeRec 0]) x) : x = (feeRec, 0) := by
  have none : ∀ {txns blind who time}, Seen.block txns blind who time ∉ seen0 ++ [.told feeRec 0] := by
    intro _ _ _ _ h
    simp [seen0] at h
  cases h with
  | told mem =>
    simp only [seen0, List.cons_append, List.nil_append, List.mem_cons, List.not_mem_nil, or_false, reduceCtorEq, false_or,
      Seen.told.injEq] at mem
    obtain ⟨rfl, rfl⟩ := mem
    rfl
  | memo a o m op p =>
    obtain ⟨before, txns, blind, who, time, after, -, -, h1, -⟩ := a
    exact absurd (by rw [h1]; simp) (none (txns := txns) (blind := blind) (who := who) (time := time))
  | change wt a o p => simp [seen0] at wt

/-- All hypotheses of `C93_partial`: Alice holds the coin before the block, and the block takes it. -/
example : run 2 ((before93 ++ [Step.block [open1] 47 bob.pubKey 700]).map Step.event) = .ok led1 ∧
    AllSatisfied 2 (before93 ++ [Step.block [open1] 47 bob.pubKey 700]) ∧
    NoCollisionV 2 (everCreated (before93 ++ [Step.block [open1] 47 bob.pubKey 700]))
      (everSpent (before93 ++ [Step.block [open1] 47 bob.pubKey 700])) ∧
    alice93.Follows 2 .debug before93 led0 ∧ alice93.Clear before93 ∧ alice93.wallet.Holds (feeRec, 0) ∧
    feeRec.asset_def = AssetDefinition.native ∧ ∃ y ∈ open1.realSpends, y.acc.uid = 0 := by
  refine ⟨steps89_run, steps89_satisfied, steps89_noCollision, ⟨worldA, .cons rfl (.cons rfl .nil)⟩, ⟨⟨?_, ?_, ?_, ?_⟩, ?_, ?_⟩,
    ?_, by decide +kernel, ?_⟩
  · intro x y hx hy _
    rw [received93 hx, received93 hy]
  · intro x y hx hy _
    rw [received93 hx, received93 hy]
  · intro x hx y hy
    simp [before93, Step.txns] at hy
  · intro x hx y hy
    simp [before93, Step.txns] at hy
  · intro x hx r hr hc
    rw [received93 hx] at hc ⊢
    exact commit89 List.mem_cons_self r (by
      rw [steps89_created]
      have : r ∈ [feeRec, assetRec].map RecordOpening.toV := hr
      simp only [List.map_cons, List.map_nil, List.mem_cons, List.not_mem_nil, or_false] at this ⊢
      tauto) hc
  · intro x hx
    rw [received93 hx]
    decide +kernel
  · exact (C59_told worldA feeRec 0 (by simp)).resolve_right (by
      have : led0.nullifiers = [] := rfl
      rw [this]
      simp)
  · have hm : (feeRec.toV, (⟨treePath 2 tree1 0, treeRoot 2 tree1, 0⟩ : AccMemberWitness).toV) ∈
        open1.realSpends.map (fun s => (s.ro, s.acc)) := by
      rw [open1_ok.real]
      have h2 : txn1.realSpends = [(feeRec, ⟨treePath 2 tree1 0, treeRoot 2 tree1, 0⟩)] :=
        List.filter_cons_of_pos (by decide +kernel)
      rw [h2]
      exact List.mem_cons_self
    obtain ⟨y, hy, he⟩ := List.mem_map.1 hm
    refine ⟨y, hy, ?_⟩
    rw [(Prod.mk.inj he).2]
    decide +kernel

/-- All hypotheses of `C93_honest`: Alice's wallet after the history of C44 up to her payment -/
example : Honest 2 [.grant feeRec, .grant assetRec, .block [txn1] 47 bob.pubKey 700] ∧
    run 2 [.grant feeRec, .grant assetRec, .block [txn1] 47 bob.pubKey 700] = .ok led1 ∧
    NoCollision 2 (created [.grant feeRec, .grant assetRec, .block [txn1] 47 bob.pubKey 700])
      (spends [.grant feeRec, .grant assetRec, .block [txn1] 47 bob.pubKey 700]) ∧
    (∀ ad ∈ defined [.grant feeRec, .grant assetRec, .block [txn1] 47 bob.pubKey 700],
      ad.code = nativeCode → ad = AssetDefinition.native) ∧
    World 2 .debug alice (seen0 ++ seenA0 ++ [seenBlock]) led1 alice_after.choose ∧
    (∀ x, Received alice (seen0 ++ seenA0 ++ [seenBlock]) x →
      ∀ ro ∈ created [.grant feeRec, .grant assetRec, .block [txn1] 47 bob.pubKey 700], ro.commitment = x.1.commitment →
        (ro.scalars, ro.blind) = (x.1.scalars, x.1.blind)) := by
  have hc : created [.grant feeRec, .grant assetRec, .block [txn1] 47 bob.pubKey 700] = records1.take 5 := by
    have h1 : collected [txn1] = 3 := by
      show Fin.ofNat (2 ^ 128) (note1.aux_info.fee.val + 0) = 3
      rw [note1_fee]
      rfl
    show [feeRec, assetRec, chg1, bobs, feeRecord bob.pubKey (collected [txn1]) 47] = _
    rw [h1]
    rfl
  have hs : spends [.grant feeRec, .grant assetRec, .block [txn1] 47 bob.pubKey 700] = spends1.take 1 := by
    have h1 : txn1.realSpends = [(feeRec, ⟨treePath 2 tree1 0, treeRoot 2 tree1, 0⟩)] :=
      List.filter_cons_of_pos (by decide +kernel)
    show txn1.realSpends ++ [] ++ [] = _
    rw [h1]
    rfl
  have hn := hist_noCollision
  rw [hist_created, hist_spends] at hn
  refine ⟨fun e he => hist_honest e (List.mem_append_left [_] he), world_run alice_after.choose_spec, ?_, ?_,
    alice_after.choose_spec, ?_⟩
  · rw [hc, hs]
    have hsub : ∀ y ∈ spends1.take 1, y ∈ spends1 := fun y hy => List.mem_of_mem_take hy
    refine ⟨fun x hx y hy => hn.node x ?_ y ?_, fun y hy => hn.node_zero y ?_, fun x hx y hy => hn.leaf x ?_ y (hsub y hy),
      fun y hy => hn.leaf_zero y (hsub y hy), ?_⟩
    · obtain ⟨k, hk, hx⟩ := List.mem_flatMap.1 hx
      have hk5 : k < 6 := List.mem_range.1 hk
      refine List.mem_flatMap.2 ⟨k, List.mem_range.2 (by
        show k < 9
        omega), ?_⟩
      rwa [List.map_take, List.take_take, min_eq_left (by omega)] at hx
    · obtain ⟨z, hz, hy⟩ := List.mem_flatMap.1 hy
      exact List.mem_flatMap.2 ⟨z, hsub z hz, hy⟩
    · obtain ⟨z, hz, hy⟩ := List.mem_flatMap.1 hy
      exact List.mem_flatMap.2 ⟨z, hsub z hz, hy⟩
    · rw [← List.take_append_drop 5 records1, List.map_append, leafCalls, List.zipIdx_append, List.map_append]
      exact List.mem_append_left _ hx
    · exact fun r hr y hy => hn.commit r (List.mem_of_mem_take hr) y (hsub y hy)
  · have hdef : defined [.grant feeRec, .grant assetRec, .block [txn1] 47 bob.pubKey 700] =
        [feeRec.asset_def, assetRec.asset_def] := rfl
    rw [hdef]
    intro ad had hcode
    simp only [List.mem_cons, List.not_mem_nil, or_false] at had
    rcases had with rfl | rfl
    · decide +kernel
    · exact absurd hcode (by decide +kernel)
  · rw [hc]
    intro x hx ro hro he
    have h1 := alice_received hx
    have hin : x.1 ∈ [feeRec, assetRec, chg1, bobs, fee89] := by
      simp only [List.mem_cons, List.not_mem_nil, or_false] at h1
      rcases h1 with rfl | rfl | rfl <;> simp
    have hro' : ro ∈ [feeRec, assetRec, chg1, bobs, fee89] := hro
    rw [List.inj_on_of_nodup_map commitments89 hro' hin he]

/-- `C93_false`: Alice pays 100 units of what Bob's wallet counts as coins, and freezes them -/
example : ∃ (ct : Toy.E.AeadCt) (o : Opening) (s : LedgerState) (h : List Step) (f : Follower),
    h = [.grant feeRec, .block [o] 47 bob.pubKey 700] ∧ run 2 (h.map Step.event) = .ok s ∧ AllSatisfied 2 h ∧
    f.key = bob ∧ f.Follows 2 .debug h s ∧ f.wallet.availableFunds .debug nativeCode = .ok 100 ∧
    (∀ s' rng recipients fee r, f.wallet.spendNative .debug 2 s' rng recipients fee ≠ .ok r) ∧
    f.seen = [.grant feeRec, .block [(o.note, [ct])] 47 bob.pubKey 700] := by
  obtain ⟨pk, vk, keys⟩ := keys22
  obtain ⟨fpk, fvk, fkeys⟩ : ∃ pk vk, freezePreprocess 2 2 = .ok (pk, vk) := ⟨_, _, rfl⟩
  obtain ⟨ct, hct⟩ : ∃ ct, ReceiverMemo.fromRo 0 (fakeCoin feeRec.amount freezer.pub_key bob.pubKey (61 : ZMod p)) [] = .ok ct :=
    ⟨_, rfl⟩
  obtain ⟨o, s, h, f, h1, h2, h3, h4, h5, h6, h7, h8, -⟩ := C93_false Toy.complete Toy.batch .debug (d := 2) (by decide) keys fkeys
    (coin := feeRec) (payer := alice) (by decide +kernel) (by decide +kernel) rfl (by decide +kernel) (freezer := freezer)
    (by decide +kernel) (by decide +kernel) (k := bob) (by decide +kernel) (blind0 := 62) hct (by decide +kernel) 47 bob.pubKey 700
  exact ⟨ct, o, s, h, f, h1, h2, h3, h5, h6, h7, h8, h4⟩

end Cap.Examples
