/-
C59: the reference wallet holds exactly the unspent records of its owner that it has been told of.

status: proved
note: The wallet of the reference tests, following the reference ledger: anybody submits notes, anybody publishes memos, records are granted, the wallet is handed records, marks records as being spent and waits for change, in any order and number; the iteration order of its hash maps may change at any time. C59_sound: every record it holds was received, belongs to its key, is not frozen and is the leaf at the recorded position. C59_told, C59_memo, C59_change: every record it was handed, could decrypt from a memo, or was waiting for as change is held or its nullifier is published. C59_fresh: no nullifier of a held record is published (given Apart: the nullifiers of the received records collide neither with each other nor with one published before the record existed). C59_exact combines these. C59_apart: Apart follows from the absence of named PRF and commitment collisions, when no record with the dummy asset code is received. C59_scans: scanning never panics when every output but the first of a transaction has a memo. C59_gone: a block that publishes the nullifier of a record takes it out of the wallet, even when the wallet is told of it in the same block.
-/
import Verif.Lemmas.World
import Verif.Props.C57

namespace Cap

open Spec

variable [E : CapEnv] [S : CapExt] {d : Fin 256} {b : Build} {k : UserKeyPair} {h : List Seen} {s : LedgerState} {w : Wallet}

/-- **What the wallet holds** was received, is its own, can be spent, and is where the wallet believes it to be. -/
theorem C59_sound (world : World d b k h s w) (x : RecordOpening × U64) (holds : w.Holds x) :
    Received k h x ∧ x.1.pub_key = k.pubKey ∧ x.1.freeze_flag = .unfrozen ∧
      s.leaves[x.2.val]? = some x.1.commitment := (worldOk world).held x holds

/-- **A record the wallet was handed** is held, or spent. -/
theorem C59_told (world : World d b k h s w) (ro : RecordOpening) (uid : U64) (told : .told ro uid ∈ h) :
    w.Holds (ro, uid) ∨ ownNullifier k (ro, uid) ∈ s.nullifiers := (worldOk world).told ro uid told

/-- **A record the wallet can decrypt** from the memo of an output is held at the position of that output, or spent. -/
theorem C59_memo (world : World d b k h s w) {t : TransactionNote} {memos : List E.AeadCt} {pos j : ℕ} {rc : F}
    {c : E.AeadCt} {ro : RecordOpening} {uid : U64} (there : At h t memos pos)
    (output : t.outputCommitments[j + 1]? = some rc) (memo : memos[j]? = some c)
    (opens : ReceiverMemo.decrypt c k rc [] = .ok ro) (unfrozen : ro.freeze_flag = .unfrozen)
    (position : uid.val = pos + 1 + j) : w.Holds (ro, uid) ∨ ownNullifier k (ro, uid) ∈ s.nullifiers :=
  (worldOk world).memo t memos pos (ro, uid) there ⟨unfrozen, j, rc, c, output, memo, opens, position⟩

/-- **Change.**  When the wallet waits for a change record (and for no other one with the same commitment) and a later
transaction has it as its first output, then the change is held, or spent. -/
theorem C59_change (world : World d b k h s w) {before after : List Seen} {chg : RecordOpening}
    (waits : h = before ++ .expecting chg :: after)
    (no_twin : ∀ chg', .expecting chg' ∈ h → chg'.commitment = chg.commitment → chg' = chg)
    {txns : List (TransactionNote × List E.AeadCt)} {blind : F} {who : UserPubKey} {time : U64}
    (later : .block txns blind who time ∈ after) {t : TransactionNote × List E.AeadCt} (ht : t ∈ txns)
    (output : t.1.outputCommitments[0]? = some chg.commitment) :
    ∃ t' memos' pos uid, At h t' memos' pos ∧ t'.outputCommitments[0]? = some chg.commitment ∧ (uid : U64).val = pos ∧
      (w.Holds (chg, uid) ∨ ownNullifier k (chg, uid) ∈ s.nullifiers) := by
  rcases (worldOk world).change chg before after waits no_twin with ⟨-, h1⟩ | h1
  · exact absurd output (h1 _ _ _ _ later t ht)
  · exact h1

/-- **No held record is spent.** -/
theorem C59_fresh (world : World d b k h s w) (apart : Apart k h) (x : RecordOpening × U64) (holds : w.Holds x) :
    ownNullifier k x ∉ s.nullifiers := world_fresh world apart x holds

/-- **Exactly the unspent records.**  Of the unfrozen records that the wallet was handed or can decrypt, it holds those
whose nullifier is not published. -/
theorem C59_exact (world : World d b k h s w) (apart : Apart k h) (x : RecordOpening × U64)
    (known : .told x.1 x.2 ∈ h ∨ ∃ t memos pos j rc c, At h t memos pos ∧ t.outputCommitments[j + 1]? = some rc ∧
      memos[j]? = some c ∧ ReceiverMemo.decrypt c k rc [] = .ok x.1 ∧ x.2.val = pos + 1 + j ∧ x.1.freeze_flag = .unfrozen) :
    w.Holds x ↔ ownNullifier k x ∉ s.nullifiers := by
  refine ⟨C59_fresh world apart x, fun hn => ?_⟩
  rcases known with h1 | ⟨t, memos, pos, j, rc, c, h1, h2, h3, h4, h5, h6⟩
  · exact (C59_told world x.1 x.2 h1).resolve_right hn
  · exact (C59_memo world h1 h2 h3 h4 h6 h5).resolve_right hn

/-- **Scanning does not panic**, whatever the memos contain, when there is one for every output but the first. -/
theorem C59_scans {s' : LedgerState} (world : World d b k h s w) {txns : List (TransactionNote × List E.AeadCt)} {blind : F}
    {who : UserPubKey} {time : U64} (valid : validateTxnsBatch d s (txns.map (·.1)) time = .ok ())
    (inserted : s.insertBlock d.val ⟨txns.map (·.1), blind, who⟩ = .ok s') {uid : U64}
    (offset : uid.val = s.leaves.length) (memos : ∀ t ∈ txns, t.1.outputCommitments.length = t.2.length + 1) :
    ∃ w' recv, w.scanBlock b (txns.map (·.1)) (txns.map (·.2)) uid = .ok (w', recv) ∧
      World d b k (h ++ [.block txns blind who time]) s' w' := by
  obtain ⟨w', recv, h1⟩ := world_scans world inserted offset memos
  exact ⟨w', recv, h1, .block world valid inserted offset h1⟩

/-- **A published nullifier takes the record out of the wallet.** -/
theorem C59_gone {txns : List (TransactionNote × List E.AeadCt)} {blind : F} {who : UserPubKey} {time : U64}
    {more : List Seen} (world : World d b k (h ++ .block txns blind who time :: more) s w)
    (apart : Apart k (h ++ .block txns blind who time :: more)) (x : RecordOpening × U64)
    {t : TransactionNote × List E.AeadCt} (ht : t ∈ txns) (spent : ownNullifier k x ∈ t.1.nullifiers) : ¬ w.Holds x := by
  intro hx
  obtain ⟨earlier, later, rfl⟩ := List.append_of_mem ht
  exact C59_fresh world apart x hx (((worldOk world).nulls _).2
    ⟨t.1, t.2, _, ⟨h, _, blind, who, time, more, earlier, later, rfl, rfl, rfl⟩, spent⟩)

/-! ### When nullifiers are apart -/

theorem ledgerEvents_append (h l : List Seen) : ledgerEvents (h ++ l) = ledgerEvents h ++ ledgerEvents l := by
  induction h with
  | nil => rfl
  | cons e h ih => cases e <;> simp [ledgerEvents, ih]

/-- the ledger of a world is the ledger after the events it sees -/
theorem world_run (world : World d b k h s w) : run d (ledgerEvents h) = .ok s := by
  induction world with
  | start => rfl
  | grant before ok ih =>
    rw [ledgerEvents_append]
    exact runFrom_append.2 ⟨_, ih, ok⟩
  | block before valid inserted offset scanned ih =>
    rename_i txns blind who time s' w' recv uid
    rw [ledgerEvents_append]
    refine runFrom_append.2 ⟨_, ih, bind_ok_iff.2 ⟨(), ?_, ?_⟩⟩
    · rw [List.map_map]
      exact valid
    · rw [List.map_map]
      exact inserted
  | told before _ _ _ _ ih => rw [ledgerEvents_append]; simpa [ledgerEvents] using ih
  | spending before _ ih => rw [ledgerEvents_append]; simpa [ledgerEvents] using ih
  | expecting before _ _ ih => rw [ledgerEvents_append]; simpa [ledgerEvents] using ih
  | credential before c ih => exact ih
  | reorder before same ih => exact ih

/-- received records are the wallet's own -/
theorem received_mine (world : World d b k h s w) {x : RecordOpening × U64} (r : Received k h x) : x.1.pub_key = k.pubKey := by
  have key : (∀ ro uid, .told ro uid ∈ h → ro.pub_key = k.pubKey) ∧ ∀ c, .expecting c ∈ h → c.pub_key = k.pubKey := by
    clear r
    have step : ∀ {h : List Seen} {e : Seen}, ((∀ ro uid, .told ro uid ∈ h → ro.pub_key = k.pubKey) ∧
        ∀ c, .expecting c ∈ h → c.pub_key = k.pubKey) → (∀ ro uid, e = .told ro uid → ro.pub_key = k.pubKey) →
        (∀ c, e = .expecting c → c.pub_key = k.pubKey) →
        (∀ ro uid, .told ro uid ∈ h ++ [e] → ro.pub_key = k.pubKey) ∧
          ∀ c, .expecting c ∈ h ++ [e] → c.pub_key = k.pubKey := by
      intro h e ih h1 h2
      refine ⟨fun ro uid hm => ?_, fun c hm => ?_⟩
      · rcases List.mem_append.1 hm with hm | hm
        · exact ih.1 ro uid hm
        · exact h1 ro uid (List.mem_singleton.1 hm).symm
      · rcases List.mem_append.1 hm with hm | hm
        · exact ih.2 c hm
        · exact h2 c (List.mem_singleton.1 hm).symm
    induction world with
    | start => exact ⟨fun _ _ h => (nomatch h), fun _ h => (nomatch h)⟩
    | grant before ok ih => exact step ih (fun _ _ h => (nomatch h)) (fun _ h => (nomatch h))
    | block before _ _ _ _ ih => exact step ih (fun _ _ h => (nomatch h)) (fun _ h => (nomatch h))
    | told before mine _ _ _ ih => exact step ih (fun _ _ h => by cases h; exact mine) (fun _ h => (nomatch h))
    | spending before _ ih => exact step ih (fun _ _ h => (nomatch h)) (fun _ h => (nomatch h))
    | expecting before mine _ ih => exact step ih (fun _ _ h => (nomatch h)) (fun _ h => by cases h; exact mine)
    | credential before c ih => exact ih
    | reorder before same ih => exact ih
  cases r with
  | told mem => exact key.1 _ _ mem
  | memo _ _ _ opens _ => exact (C35_sound _ _ _ _ _ opens).1
  | change waiting _ _ _ => exact key.2 _ waiting

omit E S in
theorem forall₂_split {α β : Type} {R : α → β → Prop} : ∀ {l1 l2 : List α} {m : List β}, List.Forall₂ R (l1 ++ l2) m →
    ∃ m1 m2, m = m1 ++ m2 ∧ List.Forall₂ R l1 m1 ∧ List.Forall₂ R l2 m2
  | [], l2, m, h => ⟨[], m, rfl, .nil, h⟩
  | a :: l1, l2, _ :: m, .cons hr h => by
    obtain ⟨m1, m2, rfl, h1, h2⟩ := forall₂_split h
    exact ⟨_ :: m1, m2, rfl, .cons hr h1, h2⟩

theorem everCreated_length : ∀ {h : List Seen} {h' : List Step}, List.Forall₂ SameNotes (ledgerEvents h) h' →
    AllSatisfied d h' → (everCreated h').length = records h
  | [], [], _, _ => rfl
  | .grant ro :: h, (.grant ro' :: h'), .cons _ hs, sat => by
    have := everCreated_length hs (fun e he => sat e (List.mem_cons_of_mem _ he))
    rw [show everCreated (.grant ro' :: h') = [ro'.toV] ++ everCreated h' from rfl, List.length_append, this]
    simp [records, Seen.size]
  | .grant ro :: h, (.block _ _ _ _ :: h'), .cons hd _, _ => hd.elim
  | .block txns blind who time :: h, (.grant _ :: h'), .cons hd _, _ => hd.elim
  | .block txns blind who time :: h, (.block os blind' who' time' :: h'), .cons hd hs, sat => by
    have := everCreated_length hs (fun e he => sat e (List.mem_cons_of_mem _ he))
    have hl : (os.flatMap Opening.creates).length = outputs txns := by
      have h1 : os.map Opening.note = txns.map (·.1) := by
        have := hd.1
        rwa [List.map_map] at this
      have h2 : ∀ o ∈ os, o.Satisfied d.val := sat (.block os blind' who' time') List.mem_cons_self
      rw [List.length_flatMap, outputs]
      have h3 : os.map (fun o => o.creates.length) = (os.map Opening.note).map (fun t => t.outputCommitments.length) := by
        rw [List.map_map]
        refine List.map_congr_left (fun o ho => ?_)
        show _ = o.note.outputCommitments.length
        rw [(h2 o ho).commitments, List.length_map]
      rw [h3, h1, List.map_map]
      rfl
    rw [everCreated, List.flatMap_cons, ← everCreated, List.length_append, this, Step.creates, List.length_append, hl]
    simp [records, Seen.size]
  | .told ro uid :: h, h', hs, sat => by
    have := everCreated_length (h := h) hs sat
    rw [this]; simp [records, Seen.size]
  | .spending x :: h, h', hs, sat => by
    have := everCreated_length (h := h) hs sat
    rw [this]; simp [records, Seen.size]
  | .expecting c :: h, h', hs, sat => by
    have := everCreated_length (h := h) hs sat
    rw [this]; simp [records, Seen.size]

/-- **Nullifiers are apart unless hashes collide.**  Whatever the assignments behind the notes of the history: unless the
hash evaluations of the history collide, the nullifiers of the records of the wallet are apart.  The wallet must not
receive records with the dummy asset code: for those, anybody may publish a nullifier. -/
theorem C59_apart_of (world : World d b k h s w) {h' : List Step} (h1 : List.Forall₂ SameNotes (ledgerEvents h) h')
    (h2 : AllSatisfied d h') (no_dummy : ∀ x, Received k h x → x.1.asset_def.code ≠ dummyCode)
    (nc : NoCollisionV d (everCreated h') (everSpent h'))
    (un : Unmixed k h (h'.flatMap (fun e => e.txns.flatMap Opening.spends))) : Apart k h := by
  have h3 := (sameNotes_run h1).trans (world_run world)
  refine ⟨fun x y hx hy hn => ?_, fun x hx t memos pos hat hpos hn => ?_⟩
  · have hp := un.prf x y hx hy hn
    rw [Prod.mk.injEq] at hp
    obtain ⟨g1, g2, g3, g4, g5⟩ := sameRecord_of_scalars (un.commit x y hx hy hp.2)
    refine Prod.ext ?_ hp.1
    have g6 : x.1.pub_key = y.1.pub_key := (received_mine world hx).trans (received_mine world hy).symm
    revert g1 g2 g4 g5 g6
    cases x.1
    cases y.1
    rintro rfl rfl rfl rfl rfl
    rfl
  · obtain ⟨before, txns, blind, who, time, after, earlier, later, rfl, rfl, rfl⟩ := hat
    rw [ledgerEvents_append] at h1
    obtain ⟨b', r', rfl, h4, h5⟩ := forall₂_split h1
    rw [ledgerEvents] at h5
    cases h5 with
    | cons hd hs =>
      rename_i e' a'
      cases e' with
      | grant => exact hd.elim
      | block os blind' who' time' =>
        have hm : os.map Opening.note = (earlier ++ (t, memos) :: later).map (·.1) := by
          have := hd.1
          rwa [List.map_map] at this
        have : t ∈ os.map Opening.note := by
          rw [hm]
          exact List.mem_map.2 ⟨(t, memos), by simp, rfl⟩
        obtain ⟨o, ho, rfl⟩ := List.mem_map.1 this
        have so := h2 (.block os blind' who' time') (by simp) o ho
        rw [so.nullifiers.1] at hn
        obtain ⟨y, hy, hyn⟩ := List.mem_map.1 hn
        have hyall : y ∈ (b' ++ .block os blind' who' time' :: a').flatMap (fun e => e.txns.flatMap Opening.spends) :=
          List.mem_flatMap.2 ⟨.block os blind' who' time', by simp, List.mem_flatMap.2 ⟨o, ho, hy⟩⟩
        have hpt := un.spent_prf x hx y hyall hyn
        rw [Prod.mk.injEq] at hpt
        have hcode : y.ro.asset_code ≠ dummyCode := by
          have h6 := un.spent_commit x hx y hyall hpt.2
          rw [← RecordOpening.toV_scalars] at h6
          rw [(scalarsV_inj (s := x.1.toV) h6).2.1]
          exact no_dummy x hx
        have hof := C57_spends h3 h2 nc o ho y hy hcode
        have hlen := everCreated_length h4 (fun e he => h2 e (List.mem_append_left _ he))
        have hsz : records before < 2 ^ 64 := by
          have := (worldOk world).small
          rw [(worldOk world).size] at this
          simp only [records, List.map_append, List.sum_append] at this ⊢
          omega
        obtain ⟨r, h7, -⟩ := hof.position (by omega)
        have h8 := (List.getElem?_eq_some_iff.1 h7).1
        rw [hpt.1, ZMod.val_natCast_of_lt (by have := E.p_gt; have := x.2.isLt; omega)] at h8
        omega

/-- Such assignments exist. -/
theorem C59_apart (sound : SnarkSound) (batch : SnarkBatch) (world : World d b k h s w)
    (no_dummy : ∀ x, Received k h x → x.1.asset_def.code ≠ dummyCode) :
    ∃ h' : List Step, List.Forall₂ SameNotes (ledgerEvents h) h' ∧ AllSatisfied d h' ∧
      (NoCollisionV d (everCreated h') (everSpent h') →
        Unmixed k h (h'.flatMap (fun e => e.txns.flatMap Opening.spends)) → Apart k h) := by
  obtain ⟨h', h1, h2, -⟩ := C57_opened sound batch (world_run world)
  exact ⟨h', h1, h2, fun nc un => C59_apart_of world h1 h2 no_dummy nc un⟩

end Cap

namespace Cap.Examples
open Toy Spec

/-! The history of C44 up to the payment, with Alice's wallet following: she is handed her two granted records, marks the
coin she spends, waits for the change, and scans the block in which 60 units go to Bob. -/

/-- Bob's memo -/
noncomputable def bobsMemo : Toy.E.AeadCt := okVal (ReceiverMemo.fromRo 0 bobs []) rfl

theorem bobsMemo_eq : ReceiverMemo.fromRo 0 bobs [] = .ok bobsMemo := okVal_eq _ rfl
theorem bobsMemo_bob : ReceiverMemo.decrypt bobsMemo bob bobs.commitment [] = .ok bobs :=
  C35_round_trip 0 bobs [] bob bobsMemo rfl bobsMemo_eq
theorem bobsMemo_alice : isOk (ReceiverMemo.decrypt bobsMemo alice bobs.commitment []) = false := by decide +kernel

/-- the block -/
noncomputable def seenBlock : Seen := .block [(txn1.note, [bobsMemo])] (47 : ZMod p) bob.pubKey 700

/-- what happens before the block -/
def seen0 : List Seen := [.grant feeRec, .grant assetRec]
/-- what Alice does before the block -/
def seenA0 : List Seen := [.told feeRec 0, .told assetRec 1, .spending (feeRec, 0), .expecting chg1]

theorem seenBlock_outputs : (txn1.note).outputCommitments = [chg1.commitment, bobs.commitment] := note1_outputs
theorem seenBlock_nullifiers : (txn1.note).nullifiers = [ownNullifier alice (feeRec, 0)] := note1_nullifiers

theorem start_world (k : UserKeyPair) : World 2 .debug k seen0 led0 (Wallet.new k) :=
  .grant (h := [.grant feeRec]) (s := ⟨[feeRec.commitment], [], [treeRoot 2 [feeRec.commitment], treeRoot 2 []]⟩)
    (.grant .start (bind_ok_iff.2 ⟨_, room (by decide), rfl⟩)) (bind_ok_iff.2 ⟨_, room (by decide), rfl⟩)

theorem alice_before : ∃ w, World 2 .debug alice (seen0 ++ seenA0) led0 w := by
  have h1 : World 2 .debug alice (seen0 ++ [.told feeRec 0]) led0 _ :=
    (start_world alice).told rfl rfl rfl (by simp [led0])
  have h2 : World 2 .debug alice (seen0 ++ [.told feeRec 0] ++ [.told assetRec 1]) led0 _ :=
    h1.told rfl rfl rfl (by simp [led0])
  have h3 := h2.spending (x := (feeRec, 0)) (Wallet.holds_add.2 (.inr (Wallet.holds_add.2 (.inl rfl))))
  have h4 := h3.expecting (chg := chg1) rfl rfl
  exact ⟨_, by simpa only [seen0, seenA0, List.append_assoc, List.cons_append, List.nil_append] using h4⟩

theorem lens1 : ∀ t ∈ [(txn1.note, [bobsMemo])], t.1.outputCommitments.length = t.2.length + 1 := by
  intro t ht
  obtain rfl := List.mem_singleton.1 ht
  dsimp only
  rw [seenBlock_outputs]
  rfl

theorem alice_after : ∃ w, World 2 .debug alice (seen0 ++ seenA0 ++ [seenBlock]) led1 w := by
  obtain ⟨w0, h0⟩ := alice_before
  obtain ⟨w, -, -, h⟩ := C59_scans (uid := 2) h0 (txns := [(txn1.note, [bobsMemo])]) valid1 led1_ok rfl lens1
  exact ⟨w, h⟩

theorem alice_at {t : TransactionNote} {memos : List Toy.E.AeadCt} {pos : ℕ}
    (h : At (seen0 ++ seenA0 ++ [seenBlock]) t memos pos) : t = txn1.note ∧ memos = [bobsMemo] ∧ pos = 2 := by
  rcases h.cases with h | ⟨txns, blind, who, time, n, h1, h2, rfl⟩
  · exfalso
    obtain ⟨before, txns, blind, who, time, after, -, -, h1, -⟩ := h
    have : Seen.block txns blind who time ∈ seen0 ++ seenA0 := by rw [h1]; simp
    simp [seen0, seenA0] at this
  · unfold seenBlock at h1
    cases h1
    rcases h2.cases with ⟨h3, h4⟩ | ⟨m, -, h3⟩
    · cases h3
      exact ⟨rfl, rfl, by rw [h4]; rfl⟩
    · exact (nomatch h3.mem)

/-- what Alice receives -/
theorem alice_received {x : RecordOpening × U64} (h : Received alice (seen0 ++ seenA0 ++ [seenBlock]) x) :
    x ∈ [(feeRec, (0 : U64)), (assetRec, 1), (chg1, 2)] := by
  cases h with
  | told mem =>
    simp only [seen0, seenA0, seenBlock, List.cons_append, List.nil_append, List.mem_cons, List.not_mem_nil, or_false,
      reduceCtorEq, false_or, Seen.told.injEq] at mem
    rcases mem with ⟨rfl, rfl⟩ | ⟨rfl, rfl⟩ <;> simp
  | memo a o m op p =>
    obtain ⟨rfl, rfl, rfl⟩ := alice_at a
    rename_i j rc c ro uid
    rw [seenBlock_outputs] at o
    match j with
    | 0 =>
      simp only [List.getElem?_cons_succ, List.getElem?_cons_zero, Option.some.injEq] at o m
      subst o m
      have := bobsMemo_alice
      rw [op] at this
      cases this
    | j + 1 => simp at o
  | change wt a o p =>
    obtain ⟨rfl, rfl, rfl⟩ := alice_at a
    simp only [seen0, seenA0, seenBlock, List.cons_append, List.nil_append, List.mem_cons, List.not_mem_nil, or_false,
      reduceCtorEq, false_or, Seen.expecting.injEq] at wt
    subst wt
    rename_i uid
    have : uid = 2 := Fin.ext p
    subst this
    simp

theorem alice_nullifiers :
    (([(feeRec, (0 : U64)), (assetRec, 1), (chg1, 2)] : List (RecordOpening × U64)).map (ownNullifier alice)).Nodup := by
  decide +kernel
theorem alice_commitments :
    (([(feeRec, (0 : U64)), (assetRec, 1), (chg1, 2)] : List (RecordOpening × U64)).map (fun x => x.1.commitment)).Nodup := by
  decide +kernel

theorem alice_apart : Apart alice (seen0 ++ seenA0 ++ [seenBlock]) := by
  refine ⟨fun x y hx hy hn => List.inj_on_of_nodup_map alice_nullifiers (alice_received hx) (alice_received hy) hn,
    fun x hx t memos pos hat hp => ?_⟩
  exfalso
  have h1 := alice_received hx
  have : x.2.val ≤ 2 := by
    simp only [List.mem_cons, List.not_mem_nil, or_false] at h1
    rcases h1 with rfl | rfl | rfl <;> decide
  obtain ⟨rfl, -, rfl⟩ := alice_at hat
  rw [seenBlock_outputs] at hp
  simp only [List.length_cons, List.length_nil] at hp
  omega

/-- After the block, Alice holds the change and the other record, and no longer the coin. -/
theorem alice_wallet : ∃ w, World 2 .debug alice (seen0 ++ seenA0 ++ [seenBlock]) led1 w ∧
    Apart alice (seen0 ++ seenA0 ++ [seenBlock]) ∧ w.Holds (chg1, 2) ∧ w.Holds (assetRec, 1) ∧ ¬ w.Holds (feeRec, 0) := by
  obtain ⟨w, hw⟩ := alice_after
  have hn : led1.nullifiers = [ownNullifier alice (feeRec, 0)] := note1_nullifiers
  have hd := alice_nullifiers
  simp only [List.map_cons, List.map_nil, List.nodup_cons, List.mem_cons, List.not_mem_nil, or_false, not_or] at hd
  refine ⟨w, hw, alice_apart, ?_, ?_, ?_⟩
  · obtain ⟨t, memos, pos, uid, h1, h2, h3, h4⟩ := C59_change hw (before := seen0 ++ [.told feeRec 0, .told assetRec 1,
      .spending (feeRec, 0)]) (after := [seenBlock]) (chg := chg1) rfl (by
        intro c hc _
        simpa only [seen0, seenA0, seenBlock, List.cons_append, List.nil_append, List.mem_cons, List.not_mem_nil, or_false,
          reduceCtorEq, false_or, Seen.expecting.injEq] using hc) (List.mem_singleton.2 rfl) List.mem_cons_self (by
        show (txn1.note).outputCommitments[0]? = _
        rw [seenBlock_outputs]
        rfl)
    obtain ⟨-, -, rfl⟩ := alice_at h1
    have : uid = 2 := Fin.ext h3
    subst this
    refine h4.resolve_right ?_
    rw [hn, List.mem_singleton]
    exact fun h => hd.1.2 h.symm
  · rw [C59_exact hw alice_apart (assetRec, 1) (.inl (by simp [seen0, seenA0])), hn, List.mem_singleton]
    exact fun h => hd.1.1 h.symm
  · exact C59_gone hw alice_apart (feeRec, 0) (t := (txn1.note, [bobsMemo])) List.mem_cons_self
      (by rw [seenBlock_nullifiers]; exact List.mem_cons_self)

/-- Bob's wallet decrypts the memo: the payment is held at position 3. -/
example : ∃ w, World 2 .debug bob (seen0 ++ [seenBlock]) led1 w ∧ w.Holds (bobs, 3) := by
  obtain ⟨w, -, -, hw⟩ := C59_scans (uid := 2) (start_world bob) (txns := [(txn1.note, [bobsMemo])]) valid1 led1_ok rfl lens1
  refine ⟨w, hw, (C59_memo hw (t := txn1.note) (memos := [bobsMemo]) (pos := 2) (j := 0) (uid := 3)
    (.last (n := 0) ⟨[], [], rfl, rfl⟩) (by rw [seenBlock_outputs]; rfl) rfl bobsMemo_bob rfl rfl).resolve_right ?_⟩
  have hn : led1.nullifiers = [ownNullifier alice (feeRec, 0)] := note1_nullifiers
  rw [hn, List.mem_singleton]
  decide +kernel

/-- the hypotheses of `C59_apart_of` hold for Alice -/
example : World 2 .debug alice (seen0 ++ seenA0 ++ [seenBlock]) led1 alice_after.choose ∧
    List.Forall₂ SameNotes (ledgerEvents (seen0 ++ seenA0 ++ [seenBlock]))
      [.grant feeRec, .grant assetRec, .block [open1] 47 bob.pubKey 700] ∧
    AllSatisfied 2 [.grant feeRec, .grant assetRec, .block [open1] 47 bob.pubKey 700] ∧
    (∀ x, Received alice (seen0 ++ seenA0 ++ [seenBlock]) x → x.1.asset_def.code ≠ dummyCode) ∧
    NoCollisionV 2 (everCreated [.grant feeRec, .grant assetRec, .block [open1] 47 bob.pubKey 700])
      (everSpent [.grant feeRec, .grant assetRec, .block [open1] 47 bob.pubKey 700]) ∧
    Unmixed alice (seen0 ++ seenA0 ++ [seenBlock]) (([.grant feeRec, .grant assetRec, .block [open1] 47 bob.pubKey 700] :
      List Step).flatMap (fun e => e.txns.flatMap Opening.spends)) := by
  rw [show ([.grant feeRec, .grant assetRec, .block [open1] 47 bob.pubKey 700] :
      List Step).flatMap (fun e => e.txns.flatMap Opening.spends) = open1.spends by simp [Step.txns]]
  refine ⟨alice_after.choose_spec, ?_, ?_, ?_, ?_, ?_⟩
  · exact .cons rfl (.cons rfl (.cons ⟨congrArg (· :: []) open1_ok.note, rfl, rfl, rfl⟩ .nil))
  · exact fun e he => steps_satisfied e (List.mem_append_left _ he)
  · intro x hx
    have h1 := alice_received hx
    simp only [List.mem_cons, List.not_mem_nil, or_false] at h1
    rcases h1 with rfl | rfl | rfl <;> decide +kernel
  · have := steps_noCollision
    rw [show everCreated steps = everCreated [.grant feeRec, .grant assetRec, .block [open1] 47 bob.pubKey 700] ++
      everCreated [.block [open2] 49 bob.pubKey 701] by simp [steps, everCreated]] at this
    exact this.mono (fun y hy => by
      simp only [steps, everSpent, List.flatMap_append, List.mem_append]
      exact .inl hy)
  · have hy : ∀ y ∈ open1.spends, y.ro = feeRec.toV ∧ y.acc.uid = 0 ∧ y.nullifier = ownNullifier alice (feeRec, 0) := by
      intro y hy
      have h1 : (y.ro, y.acc) ∈ open1.spends.map (fun s => (s.ro, s.acc)) := List.mem_map.2 ⟨y, hy, rfl⟩
      rw [open1_ok.spends] at h1
      have h2 : (y.ro, y.acc) = (feeRec.toV, (⟨treePath 2 tree1 0, treeRoot 2 tree1, 0⟩ : AccMemberWitness).toV) := by
        simpa [txn1, in1] using h1
      rw [Prod.mk.injEq] at h2
      have h3 : y.nullifier ∈ open1.spends.map Spend.nullifier := List.mem_map.2 ⟨y, hy, rfl⟩
      rw [← (open1_ok.satisfied).nullifiers.1, open1_ok.note, seenBlock_nullifiers] at h3
      exact ⟨h2.1, by rw [h2.2]; decide +kernel, List.mem_singleton.1 h3⟩
    have hf : (feeRec, (0 : U64)) ∈ [(feeRec, (0 : U64)), (assetRec, 1), (chg1, 2)] := List.mem_cons_self
    refine ⟨fun x y hx hy hn => ?_, fun x y hx hy hn => ?_, fun x hx y hm hn => ?_, fun x hx y hm hn => ?_⟩
    · rw [List.inj_on_of_nodup_map alice_nullifiers (alice_received hx) (alice_received hy) hn]
    · rw [List.inj_on_of_nodup_map alice_commitments (alice_received hx) (alice_received hy) hn]
    · obtain ⟨h1, h2, h3⟩ := hy y hm
      rw [h3] at hn
      rw [← List.inj_on_of_nodup_map alice_nullifiers hf (alice_received hx) hn, h1, h2, RecordOpening.toV_commitment]
      rfl
    · obtain ⟨h1, -, -⟩ := hy y hm
      rw [h1, RecordOpening.toV_commitment] at hn
      rw [← List.inj_on_of_nodup_map alice_commitments hf (alice_received hx) hn, h1, RecordOpening.toV_scalars]
      rfl

end Cap.Examples
