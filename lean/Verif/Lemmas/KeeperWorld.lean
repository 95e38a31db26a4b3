/-
What is true of a freezer that follows the ledger.
-/
import Verif.Lemmas.KeeperBlock

namespace Cap

open Spec

variable [E : CapEnv] [S : CapExt]

theorem events_append (h : List (Freezer × Seen)) (f : Freezer) (e : Seen) : events (h ++ [(f, e)]) = events h ++ [e] := by
  simp [events]

omit S in
theorem Freezer.describe_ok {f : Freezer} {x : ViewableData} {user : Pt} {ro : RecordOpening}
    (users : ∀ a key, mapGet a f.users = some key → key.address = a) (h : f.describe x = .ok (user, ro)) :
    Describes f.viewer.asset_def x ro ∧ ro.pub_key.address = user := by
  unfold Freezer.describe at h
  split at h
  · next owner amount blind h1 h2 h3 =>
    split at h
    · next key hk =>
      cases h
      have := users _ _ hk
      exact ⟨⟨h1.trans (congrArg some this.symm), h2, h3, rfl, rfl⟩, this⟩
    · cases h
  · cases h

omit S in
/-- what is known of a record for which the freezer waits -/
structure Waits (f : Freezer) (flag : FreezeFlag) (m : F) (e : Pending) : Prop where
  nullifier : m = f.nullifier e.old
  owner : e.owner = e.old.1.pub_key.address
  asset : e.old.1.asset_def = f.viewer.asset_def
  state : e.old.1.freeze_flag = flag
  new : ∃ blind, e.new = { e.old.1 with freeze_flag := flag.flip, blind }
  known : ∃ l, mapGet e.owner (f.shelf flag) = some l

/-- what is true of a freezer -/
structure KeeperOk (d : Fin 256) (b : Build) (k : UserKeyPair) (h : List (Freezer × Seen)) (s : LedgerState) (f : Freezer) :
    Prop where
  world : ∃ h', World d b k h' s f.wallet ∧ records h' = records (events h) ∧
    ∀ t memos pos, At h' t memos pos ↔ At (events h) t memos pos
  holder : Holder f
  users : ∀ a key, mapGet a f.users = some key → key.address = a
  lists : ∀ flag user x, f.Lists flag user x →
    x.1.asset_def = f.viewer.asset_def ∧ x.1.freeze_flag = flag ∧ x.1.pub_key.address = user
  waits : ∀ flag m e, mapGet m (f.waiting flag) = some e → Waits f flag m e
  both : ∀ user l, mapGet user (f.shelf .frozen) = some l → ∃ l', mapGet user (f.shelf .unfrozen) = some l'
  same : ∀ f0 e, (f0, e) ∈ h → f0.viewer = f.viewer ∧ f0.keypair = f.keypair
  kept : ∀ f0 e, (f0, e) ∈ h → ∀ flag user x, f0.Lists flag user x → f.Lists flag user x ∨ Taken h (f.nullifier x)
  shown : ∀ t memos pos, At (events h) t memos pos → ∀ i data rc, Shown b f.viewer t i data →
    t.outputCommitments[i]? = some rc → ∃ ro, ∃ u : U64, Describes f.viewer.asset_def data ro ∧ u.val = pos + i ∧
      (f.Lists .unfrozen ro.pub_key.address (ro, u) ∨ Taken h (f.nullifier (ro, u)))
  confirmed : ∀ f0 txns blind who time, (f0, .block txns blind who time) ∈ h → ∀ n memos, (.freeze n, memos) ∈ txns →
    ∀ (j : ℕ) m flag e rc, n.input_nullifiers[j + 1]? = some m → mapGet m (f0.waiting flag) = some e →
      n.output_commitments[j + 1]? = some rc → ∃ pos, ∃ u : U64, At (events h) (.freeze n) memos pos ∧ u.val = pos + 1 + j ∧
        (f.Lists flag.flip e.owner (e.new, u) ∨ Taken h (f.nullifier (e.new, u)))
  true_ : Truthful b f.viewer h → Matched h →
    (∀ flag user x, f.Lists flag user x → s.leaves[x.2.val]? = some x.1.commitment) ∧
    (∀ flag m e, mapGet m (f.waiting flag) = some e → s.leaves[e.old.2.val]? = some e.old.1.commitment) ∧
    ∀ f0 txns blind who time, (f0, .block txns blind who time) ∈ h → ∀ n memos, (.freeze n, memos) ∈ txns →
      ∀ (j : ℕ) m flag e, n.input_nullifiers[j + 1]? = some m → mapGet m (f0.waiting flag) = some e →
        ¬ f.Lists flag e.owner e.old ∧ s.leaves[e.old.2.val]? = some e.old.1.commitment

theorem Spec.Taken.mono {h : List (Freezer × Seen)} {m : F} (t : Taken h m) (e : Freezer × Seen) : Taken (h ++ [e]) m := by
  obtain ⟨n, memos, pos, a, h1⟩ := t
  exact ⟨n, memos, pos, by rw [show e = (e.1, e.2) from rfl, events_append]; exact a.mono _, h1⟩

theorem Spec.Truthful.before {b : Build} {v : Viewer} {h : List (Freezer × Seen)} {e : Freezer × Seen}
    (t : Truthful b v (h ++ [e])) : Truthful b v h := fun t' memos pos a =>
  t t' memos pos (by rw [show e = (e.1, e.2) from rfl, events_append]; exact a.mono _)

theorem Spec.Matched.before {h : List (Freezer × Seen)} {e : Freezer × Seen} (t : Matched (h ++ [e])) : Matched h :=
  fun f txns blind who time hm => t f txns blind who time (List.mem_append_left _ hm)

omit S in
theorem nullifier_congr {f f' : Freezer} (hk : f'.keypair = f.keypair) (x : RecordOpening × U64) :
    f'.nullifier x = f.nullifier x := by
  unfold Freezer.nullifier
  rw [hk]

/-- nothing happens on the ledger -/
theorem KeeperOk.quiet {d : Fin 256} {b : Build} {k : UserKeyPair} {h : List (Freezer × Seen)} {s : LedgerState} {f f' : Freezer}
    (i : KeeperOk d b k h s f) (hk : f'.keypair = f.keypair) (hv : f'.viewer = f.viewer)
    (world : ∃ h', World d b k h' s f'.wallet ∧ records h' = records (events h) ∧
      ∀ t memos pos, At h' t memos pos ↔ At (events h) t memos pos)
    (users : ∀ a key, mapGet a f'.users = some key → key.address = a)
    (lists : ∀ flag user x, f'.Lists flag user x ↔ f.Lists flag user x)
    (known : ∀ flag user, (∃ l, mapGet user (f'.shelf flag) = some l) ↔ ∃ l, mapGet user (f.shelf flag) = some l)
    (waits : ∀ flag m e, mapGet m (f'.waiting flag) = some e → mapGet m (f.waiting flag) = some e ∨
      (Waits f flag m e ∧ ∃ user, f.Lists flag user e.old)) : KeeperOk d b k h s f' := by
  have hn := nullifier_congr hk
  have hw : ∀ flag m e, mapGet m (f'.waiting flag) = some e → Waits f flag m e := fun flag m e he =>
    (waits flag m e he).elim (i.waits flag m e) (·.1)
  refine ⟨world, ⟨by rw [hk]; exact i.holder.pair, by rw [hk]; exact i.holder.set, by rw [hk, hv]; exact i.holder.policy⟩, users,
    fun flag user x hx => by rw [hv]; exact i.lists _ _ _ ((lists _ _ _).1 hx), fun flag m e he => ?_,
    fun user l hl => (known _ _).2 ?_, fun f0 e he => ?_,
    fun f0 e he flag user x hx => ?_, fun t memos pos a j data rc hs hc => ?_,
    fun f0 txns blind who time he n memos hm j m flag e rc h1 h2 h3 => ?_, fun ht hm => ?_⟩
  · have := hw _ _ _ he
    exact ⟨by rw [hn]; exact this.nullifier, this.owner, by rw [hv]; exact this.asset, this.state, this.new,
      (known _ _).2 this.known⟩
  · obtain ⟨l1, h1⟩ := (known .frozen user).1 ⟨l, hl⟩
    exact i.both _ _ h1
  · rw [hk, hv]
    exact i.same _ _ he
  · rw [lists, hn]
    exact i.kept _ _ he _ _ _ hx
  · rw [hv] at hs
    obtain ⟨ro, u, g1, g2, g3⟩ := i.shown t memos pos a j data rc hs hc
    exact ⟨ro, u, by rw [hv]; exact g1, g2, by rw [lists, hn]; exact g3⟩
  · obtain ⟨pos, u, g1, g2, g3⟩ := i.confirmed f0 txns blind who time he n memos hm j m flag e rc h1 h2 h3
    exact ⟨pos, u, g1, g2, by rw [lists, hn]; exact g3⟩
  · rw [hv] at ht
    obtain ⟨g1, g2, g3⟩ := i.true_ ht hm
    refine ⟨fun flag user x hx => g1 _ _ _ ((lists _ _ _).1 hx), fun flag m e he => ?_, ?_⟩
    · rcases waits _ _ _ he with h1 | ⟨-, user, h1⟩
      · exact g2 _ _ _ h1
      · exact g1 _ _ _ h1
    · simp only [lists]
      exact g3

include S in
theorem Freezer.generate_ok {k : UserKeyPair} {fk : FreezerKeyPair} {vk : ViewerKeyPair} {code : AssetCode} {f : Freezer}
    (made : Freezer.generate fk vk k code = .ok f) : ∃ policy : AssetPolicy,
      f = ⟨⟨vk, ⟨code, policy⟩⟩, fk, Wallet.new k, [], [], [], [], []⟩ ∧ policy.viewer_pk = vk.pubKey ∧
      policy.freezer_pk = fk.pub_key ∧ code ≠ nativeCode ∧ code ≠ dummyCode ∧ policy.isUserAddressRevealed = true ∧
      policy.isAmountRevealed = true ∧ policy.isBlindingFactorRevealed = true := by
  unfold Freezer.generate AssetPolicy.revealRecordOpening at made
  simp only [bind_ok_iff] at made
  obtain ⟨policy, h1, ad, h2, h3⟩ := made
  cases h3
  have h1 := Wallet.unwrap_ok h1
  have h2 := Wallet.unwrap_ok h2
  simp only [bind_ok_iff] at h1
  obtain ⟨p1, h3, p2, h4, h5⟩ := h1
  unfold AssetPolicy.revealUserAddress at h3
  unfold AssetPolicy.revealAmount at h4
  unfold AssetPolicy.revealBlindingFactor at h5
  unfold AssetDefinition.new at h2
  split at h2
  · cases h2
  · next hc =>
    cases h2
    rw [not_or] at hc
    split at h3
    · cases h3
    · cases h3
      split at h4
      · cases h4
      · cases h4
        split at h5
        · cases h5
        · cases h5
          exact ⟨_, rfl, rfl, rfl, hc.1, hc.2, rfl, rfl, rfl⟩

theorem KeeperOk.start {d : Fin 256} {b : Build} {k : UserKeyPair} {fk : FreezerKeyPair} {vk : ViewerKeyPair} {code : AssetCode}
    {f : Freezer} (made : Freezer.generate fk vk k code = .ok f) (pair : fk.pub_key = smulFr fk.sec_key E.gen)
    (set : fk.pub_key ≠ 0) : KeeperOk d b k [] (LedgerState.new d.val) f := by
  obtain ⟨policy, rfl, -, hp, -⟩ := Freezer.generate_ok made
  have nol : ∀ flag user x, ¬ (Freezer.mk ⟨vk, ⟨code, policy⟩⟩ fk (Wallet.new k) [] [] [] [] []).Lists flag user x := by
    rintro flag user x ⟨l, h1, h2⟩
    cases flag <;> cases h1
  have now : ∀ flag m e, ¬ mapGet m ((Freezer.mk ⟨vk, ⟨code, policy⟩⟩ fk (Wallet.new k) [] [] [] [] []).waiting flag) = some e := by
    intro flag m e h
    cases flag <;> cases h
  exact ⟨⟨[], .start, rfl, fun _ _ _ => Iff.rfl⟩, ⟨pair, set, hp⟩,
    fun _ _ h => (nomatch h), fun flag user x h => absurd h (nol _ _ _), fun flag m e h => absurd h (now _ _ _),
    fun _ _ h => (nomatch h), fun _ _ h => (nomatch h), fun _ _ h => (nomatch h), fun _ _ _ a => a.not_nil.elim,
    fun _ _ _ _ _ h => (nomatch h), fun _ _ => ⟨fun flag user x h => absurd h (nol _ _ _), fun flag m e h => absurd h (now _ _ _),
      fun _ _ _ _ _ h => (nomatch h)⟩⟩

theorem KeeperOk.grant {d : Fin 256} {b : Build} {k : UserKeyPair} {h : List (Freezer × Seen)} {s s' : LedgerState} {f : Freezer}
    {ro : RecordOpening} (i : KeeperOk d b k h s f) (ok : s.grant d.val ro = .ok s') :
    KeeperOk d b k (h ++ [(f, .grant ro)]) s' f := by
  obtain ⟨h', w1, w2, w3⟩ := i.world
  have hat : ∀ t memos pos, At (events h ++ [.grant ro]) t memos pos ↔ At (events h) t memos pos := fun t memos pos =>
    ⟨fun a => a.cases.elim id (fun ⟨_, _, _, _, _, h, _⟩ => (nomatch h)), fun a => a.mono _⟩
  have hat' : ∀ t memos pos, At (h' ++ [.grant ro]) t memos pos ↔ At h' t memos pos := fun t memos pos =>
    ⟨fun a => a.cases.elim id (fun ⟨_, _, _, _, _, h, _⟩ => (nomatch h)), fun a => a.mono _⟩
  have leaf : ∀ (j : ℕ) c, s.leaves[j]? = some c → s'.leaves[j]? = some c := by
    intro j c hj
    rw [(LedgerState.grant_ok ok).1, List.getElem?_append_left (List.getElem?_eq_some_iff.1 hj).1]
    exact hj
  have noblock : ∀ {f0 txns blind who time}, (f0, Seen.block txns blind who time) ∈ h ++ [(f, .grant ro)] →
      (f0, Seen.block txns blind who time) ∈ h := by
    intro f0 txns blind who time hm
    rcases List.mem_append.1 hm with hm | hm
    · exact hm
    · cases (List.mem_singleton.1 hm)
  refine ⟨⟨_, .grant w1 ok, by rw [events_append, records_append, records_append, w2], fun t memos pos => by
    rw [events_append, hat, hat', w3]⟩, i.holder, i.users, i.lists, i.waits, i.both, fun f0 e he => ?_,
    fun f0 e he flag user x hx => ?_, fun t memos pos a j data rc hs hc => ?_,
    fun f0 txns blind who time he n memos hm j m flag e rc h1 h2 h3 => ?_, fun ht hm => ?_⟩
  · rcases List.mem_append.1 he with he | he
    · exact i.same _ _ he
    · cases (List.mem_singleton.1 he)
      exact ⟨rfl, rfl⟩
  · rcases List.mem_append.1 he with he | he
    · exact (i.kept _ _ he _ _ _ hx).imp id (fun t => t.mono _)
    · cases (List.mem_singleton.1 he)
      exact .inl hx
  · rw [events_append, hat] at a
    obtain ⟨ro, u, g1, g2, g3⟩ := i.shown t memos pos a j data rc hs hc
    exact ⟨ro, u, g1, g2, g3.imp id (fun t => t.mono _)⟩
  · obtain ⟨pos, u, g1, g2, g3⟩ := i.confirmed f0 txns blind who time (noblock he) n memos hm j m flag e rc h1 h2 h3
    exact ⟨pos, u, by rw [events_append]; exact g1.mono _, g2, g3.imp id (fun t => t.mono _)⟩
  · obtain ⟨g1, g2, g3⟩ := i.true_ ht.before hm.before
    refine ⟨fun flag user x hx => leaf _ _ (g1 _ _ _ hx), fun flag m e he => leaf _ _ (g2 _ _ _ he),
      fun f0 txns blind who time he n memos hm j m flag e h1 h2 => ?_⟩
    obtain ⟨q1, q2⟩ := g3 f0 txns blind who time (noblock he) n memos hm j m flag e h1 h2
    exact ⟨q1, leaf _ _ q2⟩

theorem KeeperOk.block {d : Fin 256} {b : Build} {k : UserKeyPair} {h : List (Freezer × Seen)} {s s' : LedgerState}
    {f f' : Freezer} {txns : List (TransactionNote × List E.AeadCt)} {blind : F} {who : UserPubKey} {time uid : U64}
    (i : KeeperOk d b k h s f) (valid : validateTxnsBatch d s (txns.map (·.1)) time = .ok ())
    (inserted : s.insertBlock d.val ⟨txns.map (·.1), blind, who⟩ = .ok s') (offset : uid.val = s.leaves.length)
    (scanned : f.scanBlock b (txns.map (·.1)) (txns.map (·.2)) uid = (f', .ok ())) :
    KeeperOk d b k (h ++ [(f, .block txns blind who time)]) s' f' := by
  obtain ⟨h', w1, w2, w3⟩ := i.world
  obtain ⟨st, recv, hw⟩ := Freezer.scanBlock_ok scanned
  have hoff : uid.val = records (events h) := by rw [offset, (worldOk w1).size, w2]
  have nd : (txns.flatMap (fun t => t.1.nullifiers)).Nodup := by
    have := (validateTxnsBatch_ok valid).2.1
    rwa [List.flatMap_map] at this
  obtain ⟨fee, -, e1, e2, e3, e4, e5⟩ := LedgerState.insertBlock_ok inserted
  dsimp only at e1
  have leaf : ∀ (j : ℕ) c, s.leaves[j]? = some c → s'.leaves[j]? = some c := by
    intro j c hj
    rw [e1, List.append_assoc, List.getElem?_append_left (List.getElem?_eq_some_iff.1 hj).1]
    exact hj
  have fresh : ∀ {t : TransactionNote} {memos : List E.AeadCt} {n j : ℕ} {rc : F}, InList txns t memos n →
      t.outputCommitments[j]? = some rc → s'.leaves[uid.val + n + j]? = some rc ∧ (uid.val + n + j) % 2 ^ 64 = uid.val + n + j := by
    intro t memos n j rc hi hrc
    have h1 := flatMap_at hi hrc
    have h2 := (List.getElem?_eq_some_iff.1 h1).1
    have h3 : s'.leaves[uid.val + n + j]? = some rc := by
      rw [e1, List.append_assoc, List.getElem?_append_right (by omega), List.getElem?_append_left (by omega)]
      rw [← h1]
      congr 1
      omega
    exact ⟨h3, Nat.mod_eq_of_lt (lt_trans (List.getElem?_eq_some_iff.1 h3).1 e4)⟩
  have last : ∀ {t : TransactionNote} {memos : List E.AeadCt} {n : ℕ}, InList txns t memos n →
      At (events (h ++ [(f, .block txns blind who time)])) t memos (uid.val + n) := by
    intro t memos n hi
    rw [events_append, hoff]
    exact .last hi
  have hn := nullifier_congr st.keypair
  have taking : ∀ {flag user x}, Freezer.Taking txns f flag user x →
      Taken (h ++ [(f, .block txns blind who time)]) (f.nullifier x) := by
    rintro flag user x ⟨note, memos, n, m, e, h1, h2, h3, h4, h5⟩
    refine ⟨note, memos, _, last h1, ?_⟩
    rw [← h5, ← (i.waits _ _ _ h3).nullifier]
    exact h2
  have kept : ∀ {flag user x}, f.Lists flag user x → f'.Lists flag user x ∨
      Taken (h ++ [(f, .block txns blind who time)]) (f'.nullifier x) := by
    intro flag user x hx
    rw [hn]
    exact (st.kept _ _ _ hx).imp id taking
  have flip2 : ∀ fl : FreezeFlag, fl.flip.flip = fl := by intro fl; cases fl <;> rfl
  refine ⟨⟨_, .block w1 valid inserted offset hw, by rw [events_append, records_append, records_append, w2], fun t memos pos => ?_⟩,
    ⟨by rw [st.keypair]; exact i.holder.pair, by rw [st.keypair]; exact i.holder.set,
      by rw [st.keypair, st.viewer]; exact i.holder.policy⟩, by rw [st.users]; exact i.users,
    fun flag user x hx => ?_, fun flag m e he => ?_, st.both i.both, fun f0 e he => ?_,
    fun f0 e he flag user x hx => ?_, fun t memos pos a j data rc hs hc => ?_,
    fun f0 txns' blind' who' time' he n memos hm j m flag e rc h1 h2 h3 => ?_, fun ht hm => ?_⟩
  · rw [events_append]
    constructor
    · intro a
      rcases a.cases with a | ⟨txns', _, _, _, n, h1, h2, h3⟩
      · exact ((w3 _ _ _).1 a).mono _
      · cases h1
        rw [h3, w2]
        exact .last h2
    · intro a
      rcases a.cases with a | ⟨txns', _, _, _, n, h1, h2, h3⟩
      · exact ((w3 _ _ _).2 a).mono _
      · cases h1
        rw [h3, ← w2]
        exact .last h2
  · rw [st.viewer]
    rcases st.new _ _ _ hx with hx | (⟨rfl, t, memos, n, j, data, h1, h2, h3, h4⟩ | ⟨note, memos, n, j, m, e, h1, h2, h3, h4, h5, h6⟩)
    · exact i.lists _ _ _ hx
    · obtain ⟨q1, q2⟩ := Freezer.describe_ok i.users h3
      exact ⟨q1.asset, q1.flag, q2⟩
    · have wt := i.waits _ _ _ h3
      obtain ⟨bl, hb⟩ := wt.new
      rw [h5, hb]
      exact ⟨wt.asset, flip2 flag, by rw [h4]; exact wt.owner.symm⟩
  · have wt := i.waits _ _ _ (st.waits _ _ _ he)
    obtain ⟨l, hl⟩ := wt.known
    exact ⟨by rw [hn]; exact wt.nullifier, wt.owner, by rw [st.viewer]; exact wt.asset, wt.state, wt.new, st.known _ _ _ hl⟩
  · rw [st.keypair, st.viewer]
    rcases List.mem_append.1 he with he | he
    · exact i.same _ _ he
    · cases (List.mem_singleton.1 he)
      exact ⟨rfl, rfl⟩
  · rcases List.mem_append.1 he with he | he
    · rcases i.kept _ _ he _ _ _ hx with hx | hx
      · exact kept hx
      · rw [hn]
        exact .inr (hx.mono _)
    · cases (List.mem_singleton.1 he)
      exact kept hx
  · rw [events_append] at a
    rw [st.viewer] at hs ⊢
    rcases a.cases with a | ⟨txns', _, _, _, n, q1, q2, q3⟩
    · obtain ⟨ro, u, g1, g2, g3⟩ := i.shown t memos pos a j data rc hs hc
      refine ⟨ro, u, g1, g2, ?_⟩
      rcases g3 with g3 | g3
      · exact kept g3
      · rw [hn]
        exact .inr (g3.mono _)
    · cases q1
      obtain ⟨user, ro, u, g1, g2, g3⟩ := st.shown t memos n j data q2 hs
      obtain ⟨g4, g5⟩ := Freezer.describe_ok i.users g1
      rw [(fresh q2 hc).2] at g2
      refine ⟨ro, u, g4, by rw [g2, q3, hoff], ?_⟩
      rw [g5, hn]
      exact g3.imp id taking
  · rcases List.mem_append.1 he with he | he
    · obtain ⟨pos, u, g1, g2, g3⟩ := i.confirmed f0 txns' blind' who' time' he n memos hm j m flag e rc h1 h2 h3
      refine ⟨pos, u, by rw [events_append]; exact g1.mono _, g2, ?_⟩
      rcases g3 with g3 | g3
      · exact kept g3
      · rw [hn]
        exact .inr (g3.mono _)
    · cases (List.mem_singleton.1 he)
      obtain ⟨p, hp⟩ := InList.of_mem hm
      obtain ⟨u, g1, g2⟩ := st.confirmed nd n memos p hp j m flag e h1 h2
      have h4 := (fresh hp (j := j + 1) h3).2
      have : uid.val + p + (j + 1) = uid.val + p + 1 + j := by omega
      rw [this] at h4
      rw [h4] at g1
      refine ⟨_, u, last hp, g1, ?_⟩
      rw [hn]
      exact g2.imp id taking
  · rw [st.viewer] at ht
    obtain ⟨g1, g2, g3⟩ := i.true_ ht.before hm.before
    have arrives : ∀ {flag user x}, Freezer.Arrives b txns uid.val f flag user x →
        s'.leaves[x.2.val]? = some x.1.commitment ∧ s.leaves.length ≤ x.2.val := by
      rintro flag user x (⟨rfl, t, memos, n, j, data, h1, h2, h3, h4⟩ | ⟨note, memos, n, j, m, e, h1, h2, h3, h4, h5, h6⟩)
      · obtain ⟨q1, q2⟩ := fresh h1 (ht t memos _ (last h1) j data x.1 h2 (Freezer.describe_ok i.users h3).1)
        rw [h4, q2]
        exact ⟨q1, by omega⟩
      · obtain ⟨q1, q2⟩ := fresh h1 (j := j + 1) (hm f txns blind who time (List.mem_append_right _ List.mem_cons_self) note memos
          h1.mem j m flag.flip e h2 h3)
        have : uid.val + n + (j + 1) = uid.val + n + 1 + j := by omega
        rw [this] at q1 q2
        rw [h6, q2, h5]
        exact ⟨q1, by omega⟩
    refine ⟨fun flag user x hx => ?_, fun flag m e he => leaf _ _ (g2 _ _ _ (st.waits _ _ _ he)),
      fun f0 txns' blind' who' time' he n memos hm' j m flag e h1 h2 => ?_⟩
    · exact (st.new _ _ _ hx).elim (fun hx => leaf _ _ (g1 _ _ _ hx)) (fun ha => (arrives ha).1)
    · rcases List.mem_append.1 he with he | he
      · obtain ⟨q1, q2⟩ := g3 f0 txns' blind' who' time' he n memos hm' j m flag e h1 h2
        refine ⟨fun hx => ?_, leaf _ _ q2⟩
        rcases st.new _ _ _ hx with hx | ha
        · exact q1 hx
        · have := (arrives ha).2
          have := (List.getElem?_eq_some_iff.1 q2).1
          omega
      · cases (List.mem_singleton.1 he)
        have q2 := g2 _ _ _ h2
        refine ⟨fun hx => ?_, leaf _ _ q2⟩
        obtain ⟨p, hp⟩ := InList.of_mem hm'
        have := (arrives (st.gone nd n memos p hp j m flag e h1 h2 hx)).2
        have := (List.getElem?_eq_some_iff.1 q2).1
        omega

theorem followsOk {d : Fin 256} {b : Build} {k : UserKeyPair} {h : List (Freezer × Seen)} {s : LedgerState} {f : Freezer}
    (fol : Follows d b k h s f) : KeeperOk d b k h s f := by
  induction fol with
  | start made pair set => exact .start made pair set
  | grant before ok i => exact i.grant ok
  | block before valid inserted offset scanned i => exact i.block valid inserted offset scanned
  | user before key i =>
    rename_i h s f
    refine i.quiet rfl rfl i.world (fun a key' hk => ?_) (fun fl _ _ => by cases fl <;> exact Iff.rfl)
      (fun fl _ => by cases fl <;> exact Iff.rfl) (fun fl m e he => by cases fl <;> exact .inl he)
    have hk : mapGet a (mapSet key.address key f.users) = some key' := hk
    rw [mapGet_set] at hk
    split at hk
    · next h1 => cases hk; exact h1.symm
    · exact i.users _ _ hk
  | told before mine unfrozen there unspent i =>
    rename_i h s f ro uid
    obtain ⟨h', w1, w2, w3⟩ := i.world
    refine i.quiet rfl rfl ⟨_, .told w1 mine unfrozen there unspent, by rw [records_append, w2]; rfl, fun t memos pos => ?_⟩
      i.users (fun fl _ _ => by cases fl <;> exact Iff.rfl)
      (fun fl _ => by cases fl <;> exact Iff.rfl) (fun fl m e he => by cases fl <;> exact .inl he)
    rw [← w3]
    exact ⟨fun a => a.cases.elim id (fun ⟨_, _, _, _, _, h, _⟩ => (nomatch h)), fun a => a.mono _⟩
  | froze before ok i =>
    rename_i h s f rng flag user fee f' note memos sig
    obtain ⟨h', w1, w2, w3⟩ := i.world
    obtain ⟨records', coin, chg, -, -, -, d4, ⟨d5, d6, d7, d8⟩, -⟩ := C64_did w1 ok
    obtain ⟨records, c, info, chg', pk, vk, sk, outs, pending, sp⟩ := Freezer.freezeUser_ok.1 ok
    have fr := sp.froze w1
    have hreal : ∀ x ∈ records, x.1.asset_def ≠ AssetDefinition.dummy := by
      intro x hx e
      have := i.holder.policy
      rw [← (i.lists flag user x ⟨_, sp.known, hx⟩).1, e] at this
      exact i.holder.set this.symm
    have nd : (records.map f.nullifier).Nodup := by
      have := checkDistinct_ok.1 (FreezeNote.generate_ok.1 sp.gen).distinct
      rw [fr.nullifiers] at this
      exact (List.nodup_append.1 (List.nodup_cons.1 (List.nodup_cons.1 this).2).2).1
    obtain ⟨p1, p2⟩ := sp.pendings hreal nd
    refine i.quiet d5 d6 ⟨_, d4, ?_, fun t memos pos => ?_⟩ (by rw [d7]; exact i.users)
      (fun fl u x => by unfold Freezer.Lists; rw [d8]) (fun fl u => by rw [d8]) (fun fl m e he => ?_)
    · rw [show h' ++ [Seen.spending coin, .expecting chg] = h' ++ [.spending coin] ++ [.expecting chg] by simp, records_append,
        records_append, w2]
      rfl
    · rw [← w3, show h' ++ [Seen.spending coin, .expecting chg] = h' ++ [.spending coin] ++ [.expecting chg] by simp]
      exact ⟨fun a => a.cases.elim (fun a => a.cases.elim id (fun ⟨_, _, _, _, _, h, _⟩ => (nomatch h)))
        (fun ⟨_, _, _, _, _, h, _⟩ => (nomatch h)), fun a => (a.mono _).mono _⟩
    · by_cases hfl : fl = flag
      · subst hfl
        by_cases hm : m ∈ records.map f.nullifier
        · obtain ⟨x, hx, rfl⟩ := List.mem_map.1 hm
          obtain ⟨j, hj⟩ := List.getElem?_of_mem hx
          rw [p2 j x hj] at he
          cases he
          obtain ⟨q1, q2, q3⟩ := i.lists fl user x ⟨_, sp.known, hx⟩
          exact .inr ⟨⟨rfl, rfl, q1, q2, ⟨_, by dsimp only [flipped]; rw [q2]⟩, ⟨records, by rw [q3]; exact sp.known⟩⟩,
            user, records, sp.known, hx⟩
        · rw [p1 m hm] at he
          exact .inl he
      · left
        rw [sp.freezer] at he
        cases flag <;> cases fl <;> first | exact he | exact absurd rfl hfl
  | reorder before same i =>
    rename_i h s f f'
    obtain ⟨h', w1, w2, w3⟩ := i.world
    refine i.quiet same.keypair same.viewer ⟨_, .reorder w1 same.wallet, w2, w3⟩ (fun a key hk => i.users _ _ (by rw [← same.users]; exact hk))
      (fun fl u x => ?_) (fun fl u => ?_) (fun fl m e he => .inl (by rw [← same.waiting]; exact he))
    · unfold Freezer.Lists
      rcases same.shelf fl u with ⟨h1, h2⟩ | ⟨l, l', h1, h2, h3⟩
      · rw [h1, h2]
      · rw [h1, h2]
        constructor
        · rintro ⟨_, q1, q2⟩
          cases q1
          exact ⟨l, rfl, h3.mem_iff.2 q2⟩
        · rintro ⟨_, q1, q2⟩
          cases q1
          exact ⟨l', rfl, h3.mem_iff.1 q2⟩
    · rcases same.shelf fl u with ⟨h1, h2⟩ | ⟨l, l', h1, h2, h3⟩
      · rw [h1, h2]
      · rw [h1, h2]
        exact ⟨fun _ => ⟨l, rfl⟩, fun _ => ⟨l', rfl⟩⟩

/-! ### Where the outputs are, and nullifiers are published once -/

/-- an output of a transaction of the history is a leaf -/
theorem world_leaf {d : Fin 256} {b : Build} {k : UserKeyPair} {h : List Seen} {s : LedgerState} {w : Wallet}
    (world : World d b k h s w) {t : TransactionNote} {memos : List E.AeadCt} {pos i : ℕ} {rc : F} (a : At h t memos pos)
    (output : t.outputCommitments[i]? = some rc) : s.leaves[pos + i]? = some rc := by
  induction world with
  | start => exact a.not_nil.elim
  | grant before ok ih =>
    have := ih ((At_event (by intros; simp)).1 a)
    rw [(LedgerState.grant_ok ok).1]
    exact List.getElem?_append_left (List.getElem?_eq_some_iff.1 this).1 ▸ this
  | block before valid inserted offset scanned ih =>
    obtain ⟨fee, -, e1, -⟩ := LedgerState.insertBlock_ok inserted
    have hsize := (worldOk before).size
    rw [e1]
    rcases a.cases with a | ⟨txns, blind, who, time, n, e, hi, rfl⟩
    · have := ih a
      rw [List.append_assoc]
      rwa [List.getElem?_append_left (List.getElem?_eq_some_iff.1 this).1]
    · cases e
      have := flatMap_at hi output
      rw [List.append_assoc, List.getElem?_append_right (by omega), ← hsize, Nat.add_assoc, Nat.add_sub_cancel_left]
      rwa [List.getElem?_append_left (List.getElem?_eq_some_iff.1 this).1]
  | told before _ _ _ _ ih => exact ih ((At_event (by intros; simp)).1 a)
  | spending before _ ih => exact ih ((At_event (by intros; simp)).1 a)
  | expecting before _ _ ih => exact ih ((At_event (by intros; simp)).1 a)
  | credential before _ ih => exact ih a
  | reorder before same ih => exact ih a

theorem inList_once : ∀ {l : List (TransactionNote × List E.AeadCt)} {t t' : TransactionNote} {memos memos' : List E.AeadCt}
    {n n' : ℕ} {m : F}, ((l.map (·.1)).flatMap TransactionNote.nullifiers).Nodup → InList l t memos n → InList l t' memos' n' →
    m ∈ t.nullifiers → m ∈ t'.nullifiers → t = t' ∧ memos = memos' ∧ n = n'
  | [], _, _, _, _, _, _, _, _, h, _, _, _ => (nomatch h.mem)
  | a :: l, t, t', memos, memos', n, n', m, nd, h, h', hm, hm' => by
    rw [List.map_cons, List.flatMap_cons, List.nodup_append] at nd
    rcases h.cases with ⟨rfl, rfl⟩ | ⟨n1, rfl, h1⟩ <;> rcases h'.cases with ⟨e, rfl⟩ | ⟨n2, rfl, h2⟩
    · cases e
      exact ⟨rfl, rfl, rfl⟩
    · exact absurd rfl (nd.2.2 m hm m (List.mem_flatMap.2 ⟨_, List.mem_map_of_mem h2.mem, hm'⟩))
    · subst e
      exact absurd rfl (nd.2.2 m hm' m (List.mem_flatMap.2 ⟨_, List.mem_map_of_mem h1.mem, hm⟩))
    · obtain ⟨e1, e2, rfl⟩ := inList_once nd.2.1 h1 h2 hm hm'
      exact ⟨e1, e2, rfl⟩

/-- two transactions of the history that publish the same nullifier are the same one -/
theorem world_once {d : Fin 256} {b : Build} {k : UserKeyPair} {h : List Seen} {s : LedgerState} {w : Wallet}
    (world : World d b k h s w) {t t' : TransactionNote} {memos memos' : List E.AeadCt} {pos pos' : ℕ} {m : F}
    (a : At h t memos pos) (a' : At h t' memos' pos') (hm : m ∈ t.nullifiers) (hm' : m ∈ t'.nullifiers) :
    t = t' ∧ memos = memos' ∧ pos = pos' := by
  induction world with
  | start => exact a.not_nil.elim
  | grant before ok ih => exact ih ((At_event (by intros; simp)).1 a) ((At_event (by intros; simp)).1 a')
  | block before valid inserted offset scanned ih =>
    obtain ⟨-, nd, fresh, -⟩ := validateTxnsBatch_ok valid
    rcases a.cases with a | ⟨txns, blind, who, time, n, e, hi, rfl⟩ <;>
      rcases a'.cases with a' | ⟨txns', blind', who', time', n', e', hi', rfl⟩
    · exact ih a a'
    · cases e'
      exact absurd (((worldOk before).nulls m).2 ⟨_, _, _, a, hm⟩)
        (fresh m (List.mem_flatMap.2 ⟨_, List.mem_map_of_mem hi'.mem, hm'⟩))
    · cases e
      exact absurd (((worldOk before).nulls m).2 ⟨_, _, _, a', hm'⟩)
        (fresh m (List.mem_flatMap.2 ⟨_, List.mem_map_of_mem hi.mem, hm⟩))
    · cases e
      cases e'
      obtain ⟨e1, e2, rfl⟩ := inList_once nd hi hi' hm hm'
      exact ⟨e1, e2, rfl⟩
  | told before _ _ _ _ ih => exact ih ((At_event (by intros; simp)).1 a) ((At_event (by intros; simp)).1 a')
  | spending before _ ih => exact ih ((At_event (by intros; simp)).1 a) ((At_event (by intros; simp)).1 a')
  | expecting before _ _ ih => exact ih ((At_event (by intros; simp)).1 a) ((At_event (by intros; simp)).1 a')
  | credential before _ ih => exact ih a a'
  | reorder before same ih => exact ih a a'

end Cap
