/-
C92: payments are possible at every time.

status: partial
note: FALSE of the code. C92_exact: in every state the reference ledger can reach, whoever is ready to pay with native coins can make a note that the ledger accepts at the time `time` if and only if `time` is below 2^20. C92_false: from 2^20 on no block with a transfer made by the library is accepted, of any asset, whoever made it and whatever expiry date they asked for. C92_standstill: in a ledger whose users all use the library, every block from then on consists of mints and freezes only. These do go on at every time (C76_mint_partial, C76_freeze_partial). C92_circuit: it is the library that stops, not the circuit: for any two native coins there is a note that verifies at all times. The reason is the credential that the library puts into the fee input and into every input without credential: it expires at 2^20 - 1, and the library has no way to choose another one (C38). Completeness and batch correctness of the SNARK are assumed where notes are accepted.
-/
import Verif.Props.C76
import Verif.Props.C02

namespace Cap

open Spec

variable [E : CapEnv] [S : CapExt]

theorem batch_unexpired {time : U64} {n : TransferNote} : ∀ {ts : List TransactionNote} {roots : List F} {xs : List (List F)},
    ts.length = roots.length → batchPublicInputs time ts roots = .ok xs → .transfer n ∈ ts →
    time ≤ n.aux_info.valid_until
  | [], _, _, _, _, mem => by cases mem
  | t :: ts, [], _, hl, _, _ => by simp at hl
  | t :: ts, r :: rs, xs, hl, h, mem => by
    simp only [batchPublicInputs, bind_ok_iff, Except.ok.injEq] at h
    obtain ⟨x, hx, ys, hys, -⟩ := h
    rcases List.mem_cons.1 mem with rfl | mem
    · simp only [TransactionNote.publicScalars, bind_ok_iff] at hx
      obtain ⟨a, ha, -⟩ := hx
      exact (TransferNote.checkInstance_ok.1 ha).2.1
    · exact batch_unexpired (by simpa using hl) hys mem

/-- an accepted block has no transfer that has expired -/
theorem unexpired {d : Fin 256} {s : LedgerState} {ts : List TransactionNote} {time : U64}
    (ok : validateTxnsBatch d s ts time = .ok ()) {n : TransferNote} (mem : .transfer n ∈ ts) :
    time ≤ n.aux_info.valid_until := by
  obtain ⟨-, -, -, ks, -, hb⟩ := validateTxnsBatch_ok ok
  unfold txnBatchVerify at hb
  split at hb
  · cases hb
  · obtain ⟨xs, hxs, -⟩ := bind_ok_iff.1 hb
    exact batch_unexpired (by simp) hxs mem

/-- **The clock runs out.**  From the time 2^20 on, no block with a transfer that the library has made is accepted. -/
theorem C92_false {d : Fin 256} {s : LedgerState} {b : Build} {rng : TransferRand}
    {inputs : List TransferNoteInput} {outputs : List RecordOpening} {pk : TransferProvingKey} {valid_until : U64}
    {extra : List Byte} {n : TransferNote} {sk : Fr}
    (gen : TransferNote.generate b rng inputs outputs pk valid_until extra = .ok (n, sk)) {ts : List Txn}
    (mem : .transfer n ∈ ts.map (·.note)) {time : U64} (late : 2 ^ 20 ≤ time.val) (blind : F) (who : UserPubKey)
    (s' : LedgerState) : (Event.block ts blind who time).apply d s ≠ .ok s' := by
  intro h
  rw [Event.apply, bind_ok_iff] at h
  obtain ⟨⟨⟩, hv, -⟩ := h
  have h1 := unexpired hv mem
  obtain ⟨w, pub, hg⟩ := TransferNote.generate_ok.1 gen
  rw [hg.note_valid] at h1
  have h2 := C38_window gen
  have h3 : time.val ≤ valid_until.val := h1
  omega

/-- **Exactly.**  Whoever is ready to pay can have a payment accepted at the time `time` if and only if it is below 2^20. -/
theorem C92_exact (complete : SnarkComplete) (batch : SnarkBatch) {d : Fin 256} {h : List Event} {s : LedgerState}
    (ran : run d h = .ok s)
    {coins : List Coin} (some_coin : coins ≠ []) (ready : ∀ c ∈ coins, Ready s c)
    (native : ∀ c ∈ coins, c.ro.asset_def = AssetDefinition.native) (distinct : (coins.map Coin.nullifier).Nodup)
    {outputs : List RecordOpening} {fee : Amount}
    (outs : ∀ o ∈ outputs, o.asset_def = AssetDefinition.native ∧ o.freeze_flag = .unfrozen)
    (covers : total outputs + fee.val ≤ total (coins.map (·.ro))) (small : total (coins.map (·.ro)) < 2 ^ 127)
    {pk : TransferProvingKey} {vk : TransferVerifyingKey}
    (keys : transferPreprocess coins.length (outputs.length + 1) d = .ok (pk, vk))
    (space : Room d.val s (outputs.length + 2)) (b : Build) (chg_blind : F) (rng : TransferRand) (blind : F)
    (who : UserPubKey) (time : U64) :
    (∃ valid_until n sk chg s',
      TransferNote.generateNative b chg_blind rng (coins.map (Coin.input d.val s)) outputs fee valid_until pk =
        .ok (n, sk, chg) ∧
      run d (h ++ [.block [⟨.transfer n, coins.map (fun c => (c.ro, lookup d.val s c.uid)), chg :: outputs⟩] blind who
        time]) = .ok s') ↔ time.val < 2 ^ 20 := by
  constructor
  · rintro ⟨vu, n, sk, chg, s', gen, hr⟩
    by_contra late
    obtain ⟨s1, -, h2⟩ := runFrom_append.1 hr
    unfold TransferNote.generateNative at gen
    split at gen
    · cases gen
    · simp only [bind_ok_iff] at gen
      obtain ⟨_, _, _, _, _, _, _, _, _, _, ⟨n', sk'⟩, gen, e⟩ := gen
      cases e
      exact C92_false gen (by simp) (by omega) blind who s' h2
  · intro early
    obtain ⟨n, sk, chg, gen, -, e, s', rfl, hr⟩ := C76_native_partial complete batch ran some_coin ready native distinct
      outs covers small keys (valid_until := time) early (le_refl time) space b chg_blind rng blind who
    exact ⟨time, n, sk, chg, s', gen, hr⟩

/-- **Standstill.**  When all users use the library, every block from 2^20 on consists of mints and freezes. -/
theorem C92_standstill {d : Fin 256} {s s' : LedgerState} {ts : List Txn} {blind : F} {who : UserPubKey} {time : U64}
    (ok : (Event.block ts blind who time).apply d s = .ok s') (made : ∀ t ∈ ts, Made d t) (late : 2 ^ 20 ≤ time.val) :
    ∀ t ∈ ts, (∃ n, t.note = .mint n) ∨ ∃ n, t.note = .freeze n := by
  intro t ht
  cases made t ht with
  | transfer keys gen => exact absurd ok (C92_false gen (List.mem_map.2 ⟨_, ht, rfl⟩) late blind who s')
  | mint keys gen => exact .inl ⟨_, rfl⟩
  | freeze keys gen _ _ => exact .inr ⟨_, rfl⟩

/-- **It is not the circuit.**  For any two native coins there is a note that sends the second one to anybody and that
verifies at all times. -/
theorem C92_circuit (complete : SnarkComplete) {d : Fin 256} (hd : d.val ≠ 0)
    {pk : TransferProvingKey} {vk : TransferVerifyingKey} (keys : transferPreprocess 2 2 d = .ok (pk, vk))
    {fee_ro ro : RecordOpening} {k0 k1 : UserKeyPair}
    (fee_asset : fee_ro.asset_def = AssetDefinition.native) (fee_unfrozen : fee_ro.freeze_flag = .unfrozen)
    (fee_owner : fee_ro.pub_key.address = k0.address) (fee_small : fee_ro.amount.val < 2 ^ 127)
    (ro_asset : ro.asset_def = AssetDefinition.native) (ro_unfrozen : ro.freeze_flag = .unfrozen)
    (ro_owner : ro.pub_key.address = k1.address) (ro_small : ro.amount.val < 2 ^ 127) (receiver : UserPubKey) (blind : F) :
    ∃ n w, OpensTransfer 2 2 d.val n w ∧ (∀ t, n.verify vk n.aux_info.merkle_root t = .ok ()) ∧
      w.inputs.map (·.ro) = [fee_ro.toV, ro.toV] ∧
      w.outputs = [fee_ro.toV, (RecordOpening.mk ro.amount AssetDefinition.native receiver .unfrozen blind).toV] := by
  have h := C02_false complete hd keys fee_asset fee_unfrozen fee_owner fee_small ro_unfrozen ro_owner
    (by rw [ro_asset]; exact native_ne_dummy) (by rw [ro_asset]; rfl) ro_small nativeCode receiver blind
  rw [ro_asset] at h
  exact h

end Cap

namespace Cap.Examples
open Toy Spec

/-- `C92_exact`: Bob can pay 20 to Alice from both of his records until 2^20 - 1, and not afterwards -/
example (time : U64) : (∃ valid_until n sk chg s', TransferNote.generateNative .release 50 rng
      (bobsCoins.map (Coin.input 2 led1)) [⟨20, AssetDefinition.native, alice.pubKey, .unfrozen, 51⟩] 3 valid_until
      ⟨.transfer 2 2 2, 2, 2, 2⟩ = .ok (n, sk, chg) ∧
    run 2 (steps3.map Step.event ++ [.block [⟨.transfer n, bobsCoins.map (fun c => (c.ro, lookup 2 led1 c.uid)),
      chg :: [⟨20, AssetDefinition.native, alice.pubKey, .unfrozen, 51⟩]⟩] 52 bob.pubKey time]) = .ok s') ↔
    time.val < 2 ^ 20 :=
  C92_exact Toy.complete Toy.batch steps3_run
    (coins := bobsCoins) (by simp [bobsCoins]) bobsCoins_ready.1 (by decide +kernel) bobsCoins_ready.2
    (outputs := [⟨20, AssetDefinition.native, alice.pubKey, .unfrozen, 51⟩]) (fee := 3) (by decide +kernel)
    (by decide +kernel) (by decide +kernel) (pk := ⟨.transfer 2 2 2, 2, 2, 2⟩) (vk := ⟨.transfer 2 2 2, 2, 2, 2⟩) rfl
    ⟨by decide, by decide⟩ .release 50 rng 52 bob.pubKey time

/-- `C92_false`: Alice's first note is accepted at the time 700, and never from 2^20 on -/
example : validateTxnsBatch 2 led0 [txn1.note] 700 = .ok () ∧
    ∀ (time : U64) s', 2 ^ 20 ≤ time.val → (Event.block [txn1] 47 bob.pubKey time).apply 2 led0 ≠ .ok s' :=
  ⟨valid1, fun _ s' late => C92_false note1_eq (List.mem_map.2 ⟨_, List.mem_singleton.2 rfl, rfl⟩) late 47 bob.pubKey s'⟩

/-- `C92_standstill`: a mint of Bob's goes through at the time 2^20 -/
example : ∃ ts s', (Event.block ts 52 bob.pubKey 1048576).apply 2 led1 = .ok s' ∧ (∀ t ∈ ts, Made 2 t) ∧ ts ≠ [] := by
  obtain ⟨info, chg, n, sk, h1, h2, -, e, s', rfl, hs⟩ := C76_mint_partial Toy.complete Toy.batch steps3_run
    (fee_coin := ⟨bobs, 3, bob, none⟩) (bobsCoins_ready.1 _ List.mem_cons_self) rfl (fee := 5)
    (by decide +kernel) (seed := seed) (desc := desc) (ro := mintRec) ⟨by decide +kernel, rfl⟩ (by decide +kernel) keys2
    (time := 1048576) ⟨by decide, by decide⟩ 50 rng 52 bob.pubKey
  obtain ⟨s1, h3, h4⟩ := runFrom_append.1 hs
  obtain rfl : led1 = s1 := Except.ok.inj (steps3_run.symm.trans h3)
  refine ⟨_, s', h4, ?_, by simp⟩
  intro t ht
  obtain rfl := List.mem_singleton.1 ht
  have hinfo := (C23_change _ _ _ _ _ h1).2.2.2.2.2
  have := Made.mint keys2 h2
  rw [hinfo.1, hinfo.2.1] at this
  exact this

/-- `C92_circuit`: the change and Bob's record of the first note -/
example : ∃ n w, OpensTransfer 2 2 2 n w ∧
    (∀ t, n.verify ⟨.transfer 2 2 2, 2, 2, 2⟩ n.aux_info.merkle_root t = .ok ()) ∧
    w.inputs.map (·.ro) = [chg1.toV, bobs.toV] := by
  obtain ⟨n, w, h1, h2, h3, -⟩ := C92_circuit Toy.complete (d := 2) (by decide)
    (pk := ⟨.transfer 2 2 2, 2, 2, 2⟩) (vk := ⟨.transfer 2 2 2, 2, 2, 2⟩) rfl (fee_ro := chg1) (ro := bobs)
    (k0 := alice) (k1 := bob) rfl rfl rfl (by decide +kernel) rfl rfl rfl (by decide +kernel) alice.pubKey 53
  exact ⟨n, w, h1, h2, h3⟩

end Cap.Examples
