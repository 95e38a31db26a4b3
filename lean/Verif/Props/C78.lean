/-
C78: a wallet can be rebuilt from its key, the blocks and the memos.

status: partial
note: False for the reference wallet: the first output of every transaction, which is where payments, mints and freezes put their change, comes without a memo, so a wallet rebuilt from the key and everything that was published never holds it (C78_lost for every first output of every history, C78_change_lost for every native payment; C78_false: a history in which the owner holds their change and the rebuilt wallet does not). Proved: scanning the published blocks again from the beginning succeeds (C78_restores); the rebuilt wallet holds exactly those records of the one that followed along whose memo was published, whatever was pending, whoever made the notes and memos (C78_restored_partial); and when the openings of the other ones were kept and are handed to it, it holds exactly what the lost one held (C78_backup).
-/
import Verif.Props.C61

namespace Cap

namespace Spec

variable [E : CapEnv] [S : CapExt]

/-- Is this on the ledger or on the bulletin board?  (What a wallet does or is told by its owner is not.) -/
def Seen.isPublic : Seen → Bool
  | .grant _ => true
  | .block _ _ _ _ => true
  | .told _ _ => false
  | .spending _ => false
  | .expecting _ => false

/-- what is published of a history -/
def published (h : List Seen) : List Seen := h.filter Seen.isPublic

/-- A memo for this record, which `k` can open, was published with the transaction that created it. -/
def HasMemo (k : UserKeyPair) (h : List Seen) (x : RecordOpening × U64) : Prop :=
  ∃ t memos pos j rc c, At h t memos pos ∧ t.outputCommitments[j + 1]? = some rc ∧ memos[j]? = some c ∧
    ReceiverMemo.decrypt c k rc [] = .ok x.1 ∧ x.2.val = pos + 1 + j

end Spec

open Spec

variable [E : CapEnv] [S : CapExt] {d : Fin 256} {b : Build} {k : UserKeyPair} {h : List Seen} {s : LedgerState} {w : Wallet}

theorem published_append (h : List Seen) (e : Seen) : published (h ++ [e]) = published h ++ (if e.isPublic then [e] else []) := by
  unfold published
  rw [List.filter_append]
  cases he : e.isPublic <;> simp [he]

theorem published_records (h : List Seen) : records (published h) = records h := by
  induction h using List.reverseRecOn with
  | nil => rfl
  | append_singleton h e ih =>
    rw [published_append, records_append]
    cases e <;> simp [Seen.isPublic, records_append, ih, Seen.size]

theorem published_at {t : TransactionNote} {memos : List E.AeadCt} {pos : ℕ} :
    At (published h) t memos pos ↔ At h t memos pos := by
  induction h using List.reverseRecOn generalizing t memos pos with
  | nil => exact Iff.rfl
  | append_singleton h e ih =>
    rw [published_append]
    cases e with
    | block txns blind who time =>
      simp only [Seen.isPublic, if_true]
      constructor
      · intro a
        rcases a.cases with a | ⟨txns', blind', who', time', n, he, hi, hp⟩
        · exact (ih.1 a).mono _
        · rw [published_records] at hp
          cases he
          subst hp
          exact .last hi
      · intro a
        rcases a.cases with a | ⟨txns', blind', who', time', n, he, hi, hp⟩
        · exact (ih.2 a).mono _
        · rw [← published_records] at hp
          cases he
          subst hp
          exact .last hi
    | grant ro =>
      simp only [Seen.isPublic, if_true]
      rw [At_event (by simp), At_event (by simp)]
      exact ih
    | told ro uid => simp only [Seen.isPublic, List.append_nil, At_event (h := h) (e := .told ro uid) (by simp)]; simpa using ih
    | spending x => simp only [Seen.isPublic, List.append_nil, At_event (h := h) (e := .spending x) (by simp)]; simpa using ih
    | expecting c => simp only [Seen.isPublic, List.append_nil, At_event (h := h) (e := .expecting c) (by simp)]; simpa using ih

theorem hasMemo_received {x : RecordOpening × U64} (m : HasMemo k h x) : Received k h x := by
  obtain ⟨t, memos, pos, j, rc, c, h1, h2, h3, h4, h5⟩ := m
  exact .memo h1 h2 h3 h4 h5

theorem published_received {x : RecordOpening × U64} (r : Received k (published h) x) : HasMemo k h x := by
  cases r with
  | told mem =>
    have := (List.mem_filter.1 mem).2
    simp [Seen.isPublic] at this
  | memo a o m op p => exact ⟨_, _, _, _, _, _, published_at.1 a, o, m, op, p⟩
  | change wt a o p =>
    have := (List.mem_filter.1 wt).2
    simp [Seen.isPublic] at this

theorem published_events (h : List Seen) : ledgerEvents (published h) = ledgerEvents h := by
  induction h using List.reverseRecOn with
  | nil => rfl
  | append_singleton h e ih =>
    rw [published_append, ledgerEvents_append, ledgerEvents_append, ih]
    cases e <;> rfl

theorem published_apart (apart : Apart k h) : Apart k (published h) :=
  ⟨fun x y hx hy => apart.among x y (hasMemo_received (published_received hx)) (hasMemo_received (published_received hy)),
    fun x hx t memos pos a => apart.past x (hasMemo_received (published_received hx)) t memos pos (published_at.1 a)⟩

/-- **Everything can be scanned again** by a fresh wallet with the same key. -/
theorem C78_restores (world : World d b k h s w) : ∃ w', World d b k (published h) s w' := by
  induction world with
  | start => exact ⟨_, .start⟩
  | grant before ok ih =>
    obtain ⟨w', h1⟩ := ih
    rw [published_append]
    exact ⟨w', .grant h1 ok⟩
  | block before valid inserted offset scanned ih =>
    obtain ⟨w', h1⟩ := ih
    rw [published_append]
    have lens := scanned
    unfold Wallet.scanBlock at lens
    rw [if_neg (by simp), zip_map_self] at lens
    obtain ⟨w2, recv, -, h2⟩ := C59_scans h1 valid inserted offset (Wallet.scanTxns_lens lens)
    exact ⟨w2, h2⟩
  | told before _ _ _ _ ih => obtain ⟨w', h1⟩ := ih; rw [published_append]; exact ⟨w', by simpa [Seen.isPublic] using h1⟩
  | spending before _ ih => obtain ⟨w', h1⟩ := ih; rw [published_append]; exact ⟨w', by simpa [Seen.isPublic] using h1⟩
  | expecting before _ _ ih => obtain ⟨w', h1⟩ := ih; rw [published_append]; exact ⟨w', by simpa [Seen.isPublic] using h1⟩
  | credential before c ih => exact ih
  | reorder before same ih => exact ih

theorem same_ledger {b' : Build} {s' : LedgerState} {w' : Wallet} (world : World d b k h s w)
    (again : World d b' k (published h) s' w') : s' = s := by
  have h1 := world_run world
  have h2 := world_run again
  rw [published_events, h1] at h2
  exact (Except.ok.inj h2).symm

/-- **What the rebuilt wallet holds**: of the records of the wallet that followed along, those with a published memo. -/
theorem C78_restored_partial {b' : Build} {s' : LedgerState} {w' : Wallet} (world : World d b k h s w) (apart : Apart k h)
    (again : World d b' k (published h) s' w') (x : RecordOpening × U64) :
    w'.Holds x ↔ w.Holds x ∧ HasMemo k h x := by
  obtain rfl := same_ledger world again
  constructor
  · intro hx
    obtain ⟨h1, h2, h3, h4⟩ := C59_sound again x hx
    have m := published_received h1
    refine ⟨?_, m⟩
    obtain ⟨t, memos, pos, j, rc, c, a1, a2, a3, a4, a5⟩ := m
    exact (C59_exact world apart x (.inr ⟨t, memos, pos, j, rc, c, a1, a2, a3, a4, a5, h3⟩)).2
      (C59_fresh again (published_apart apart) x hx)
  · rintro ⟨hx, t, memos, pos, j, rc, c, a1, a2, a3, a4, a5⟩
    exact (C59_exact again (published_apart apart) x
      (.inr ⟨t, memos, pos, j, rc, c, published_at.2 a1, a2, a3, a4, a5, (C59_sound world x hx).2.2.1⟩)).2
      (C59_fresh world apart x hx)

/-- **With a backup nothing is lost.**  `kept` are the openings and positions of those unspent records for which no memo
was published. -/
theorem C78_backup {b' : Build} {s' : LedgerState} {w' : Wallet} (world : World d b k h s w) (apart : Apart k h)
    (again : World d b' k (published h) s' w') (kept : List (RecordOpening × U64)) (held : ∀ x ∈ kept, w.Holds x)
    (all : ∀ x, w.Holds x → HasMemo k h x ∨ x ∈ kept) :
    ∃ w'', World d b' k (published h ++ kept.map (fun x => .told x.1 x.2)) s w'' ∧ ∀ x, w''.Holds x ↔ w.Holds x := by
  have hmemo := C78_restored_partial world apart again
  obtain rfl := same_ledger world again
  have key : ∀ l : List (RecordOpening × U64), (∀ x ∈ l, w.Holds x) →
      ∃ w'', World d b' k (published h ++ l.map (fun x => .told x.1 x.2)) s' w'' ∧
        ∀ x, w''.Holds x ↔ x ∈ l ∨ w'.Holds x := by
    intro l
    induction l using List.reverseRecOn with
    | nil => intro _; exact ⟨w', by simpa using again, fun x => by simp⟩
    | append_singleton l y ih =>
      intro hl
      obtain ⟨w2, h1, h2⟩ := ih (fun x hx => hl x (List.mem_append_left _ hx))
      obtain ⟨-, g2, g3, g4⟩ := C59_sound world y (hl y (List.mem_append_right _ List.mem_cons_self))
      have g5 := C59_fresh world apart y (hl y (List.mem_append_right _ List.mem_cons_self))
      refine ⟨w2.addRecordOpening y.1 y.2, ?_, fun x => ?_⟩
      · rw [List.map_append, ← List.append_assoc]
        exact h1.told g2 g3 g4 (by rw [(worldOk h1).nullify]; exact g5)
      · rw [Wallet.holds_add, h2, List.mem_append, List.mem_singleton]
        tauto
  obtain ⟨w'', h1, h2⟩ := key kept held
  refine ⟨w'', h1, fun x => (h2 x).trans ⟨fun hx => hx.elim (held x) (fun hx => ((hmemo x).1 hx).1), fun hx => ?_⟩⟩
  exact (all x hx).elim (fun m => .inr ((hmemo x).2 ⟨hx, m⟩)) .inl

theorem InList.apart : ∀ {txns : List (TransactionNote × List E.AeadCt)} {t t' : TransactionNote} {memos memos' : List E.AeadCt}
    {n n' : ℕ}, InList txns t memos n → InList txns t' memos' n' →
    n = n' ∨ n + t.outputCommitments.length ≤ n' ∨ n' + t'.outputCommitments.length ≤ n
  | [], _, _, _, _, _, _, h, _ => (nomatch h.mem)
  | a :: l, t, t', memos, memos', n, n', h, h' => by
    rcases h.cases with ⟨rfl, rfl⟩ | ⟨m, rfl, h1⟩ <;> rcases h'.cases with ⟨h2, rfl⟩ | ⟨m', rfl, h1'⟩
    · exact .inl rfl
    · dsimp only; omega
    · subst h2; dsimp only; omega
    · have := InList.apart h1 h1'
      omega

/-- transactions do not overlap in the tree -/
theorem Spec.At.apart {t t' : TransactionNote} {memos memos' : List E.AeadCt} {n n' : ℕ} (a : At h t memos n)
    (a' : At h t' memos' n') :
    n = n' ∨ n + t.outputCommitments.length ≤ n' ∨ n' + t'.outputCommitments.length ≤ n := by
  induction h using List.reverseRecOn with
  | nil => exact a.not_nil.elim
  | append_singleton h e ih =>
    rcases a.cases with a1 | ⟨txns, blind, who, time, m, he, hi, rfl⟩ <;>
      rcases a'.cases with a1' | ⟨txns', blind', who', time', m', he', hi', rfl⟩
    · exact ih a1 a1'
    · have := a1.inside; omega
    · have := a1'.inside; omega
    · rw [he] at he'
      cases he'
      have := InList.apart hi hi'
      omega

/-- **The first output of a transaction is never recovered**, whatever memos were published. -/
theorem C78_lost {w' : Wallet} (again : World d b k (published h) s w') {t : TransactionNote} {memos : List E.AeadCt}
    {pos : ℕ} (there : At h t memos pos) (x : RecordOpening × U64) (first : x.2.val = pos) : ¬ w'.Holds x := by
  intro hx
  obtain ⟨t', memos', pos', j, rc, c, a1, a2, a3, a4, a5⟩ := published_received (C59_sound again x hx).1
  have h1 := (List.getElem?_eq_some_iff.1 a2).1
  have h2 := Spec.At.apart there a1
  omega

/-- **The change of a payment is lost.**  A native payment was made and is in a block that the wallet scanned.  The wallet has
(or has spent) its change, at the position of the first output; no wallet rebuilt from what is published ever holds it. -/
theorem C78_change_lost {rng : PaymentRand} {recipients : List (UserPubKey × Amount)} {fee : Amount} {w0 w' : Wallet}
    {coins : List (RecordOpening × U64)} {chg : RecordOpening} {note : TransferNote} {memos : List E.AeadCt}
    (pay : Payment k w0 rng recipients fee coins chg note memos) {before after : List Seen}
    (waits : h = before ++ .expecting chg :: after)
    (no_twin : ∀ chg', .expecting chg' ∈ h → chg'.commitment = chg.commitment → chg' = chg)
    (world : World d b k h s w) {txns : List (TransactionNote × List E.AeadCt)} {blind : F} {who : UserPubKey} {time : U64}
    (later : .block txns blind who time ∈ after) (there : (.transfer note, memos) ∈ txns)
    (again : World d b k (published h) s w') :
    ∃ uid, (w.Holds (chg, uid) ∨ ownNullifier k (chg, uid) ∈ s.nullifiers) ∧ ¬ w'.Holds (chg, uid) := by
  obtain ⟨t, m, pos, uid, h1, -, h3, h4⟩ := C59_change world waits no_twin later there pay.first
  exact ⟨uid, h4, C78_lost again h1 _ h3⟩

end Cap

namespace Cap.Examples
open Toy Spec

/-- Alice's wallet of C59 holds her change; rebuilt from her key and the ledger, it does not. -/
theorem alice_lost : ∃ w w', World 2 .debug alice (seen0 ++ seenA0 ++ [seenBlock]) led1 w ∧
    Apart alice (seen0 ++ seenA0 ++ [seenBlock]) ∧ w.Holds (chg1, 2) ∧
    World 2 .debug alice (published (seen0 ++ seenA0 ++ [seenBlock])) led1 w' ∧ ¬ w'.Holds (chg1, 2) := by
  obtain ⟨w, h1, h2, h3, -⟩ := alice_wallet
  obtain ⟨w', h4⟩ := C78_restores h1
  refine ⟨w, w', h1, h2, h3, h4, C78_lost h4 (t := txn1.note) (memos := [bobsMemo]) (pos := 2) ?_ _ rfl⟩
  exact .last (n := 0) InList.head

/-- her change is not nothing -/
example : 0 < chg1.amount.val := by decide +kernel

/-- Bob's payment has a memo, so his rebuilt wallet holds it -/
example : HasMemo bob (seen0 ++ [seenBlock]) (bobs, 3) :=
  ⟨txn1.note, [bobsMemo], 2, 0, _, _, .last (n := 0) InList.head, by rw [seenBlock_outputs]; rfl, rfl, bobsMemo_bob, rfl⟩

/-- with the openings of her granted record and of her change, Alice's rebuilt wallet holds what the other one holds -/
example : ∃ w w'', World 2 .debug alice (seen0 ++ seenA0 ++ [seenBlock]) led1 w ∧
    World 2 .debug alice (published (seen0 ++ seenA0 ++ [seenBlock]) ++ [.told assetRec 1, .told chg1 2]) led1 w'' ∧
    w''.Holds (chg1, 2) := by
  obtain ⟨w, h1, h2, h3, h4, h5⟩ := alice_wallet
  obtain ⟨w', h6⟩ := C78_restores h1
  obtain ⟨w'', h7, h8⟩ := C78_backup h1 h2 h6 [(assetRec, 1), (chg1, 2)]
    (by
      intro x hx
      simp only [List.mem_cons, List.not_mem_nil, or_false] at hx
      rcases hx with rfl | rfl
      · exact h4
      · exact h3)
    (by
      intro x hx
      have := alice_received (C59_sound h1 x hx).1
      rcases List.mem_cons.1 this with rfl | this
      · exact absurd hx h5
      · exact .inr this)
  exact ⟨w, w'', h1, h7, (h8 _).2 h3⟩

/-- the hypotheses of `C78_change_lost`, for the first payment of C61 -/
example : ∃ (note : TransferNote) (memos : List Toy.E.AeadCt) (s' : LedgerState) (w w' : Wallet) (uid : U64), Payment alice walletA payRng [(bob.pubKey, 60)] 3 [(feeRec, 0)] chgA note memos ∧
    World 2 .debug alice (seen0 ++ [.told feeRec 0] ++ [(feeRec, 0)].map .spending ++
      .expecting chgA :: [.block [(.transfer note, memos)] (47 : ZMod p) bob.pubKey 5]) s' w ∧
    (w.Holds (chgA, uid) ∨ ownNullifier alice (chgA, uid) ∈ s'.nullifiers) ∧ ¬ w'.Holds (chgA, uid) := by
  obtain ⟨note, memos, w0, pay, hw, valid⟩ := firstPayment
  obtain ⟨s', hs'⟩ := two_out pay.lengths.1
  have lens : ∀ t ∈ [(TransactionNote.transfer note, memos)], t.1.outputCommitments.length = t.2.length + 1 := by
    intro t ht
    obtain rfl := List.mem_singleton.1 ht
    show note.output_commitments.length = memos.length + 1
    rw [pay.lengths.1, pay.lengths.2]
  obtain ⟨wA, -, -, hA⟩ := C59_scans (uid := 2) hw (txns := [(.transfer note, memos)]) (time := 5) valid hs' rfl lens
  have hA : World 2 .debug alice (seen0 ++ [.told feeRec 0] ++ [(feeRec, 0)].map .spending ++
      .expecting chgA :: [.block [(.transfer note, memos)] (47 : ZMod p) bob.pubKey 5]) s' wA := by
    simpa only [List.append_assoc, List.cons_append, List.nil_append] using hA
  obtain ⟨w', again⟩ := C78_restores hA
  obtain ⟨uid, g1, g2⟩ := C78_change_lost pay rfl (by
      intro c hc _
      rcases List.mem_append.1 hc with hc | hc
      · simp [seen0] at hc
      · rcases List.mem_cons.1 hc with hc | hc
        · cases hc
          rfl
        · simp at hc) hA (List.mem_singleton.2 rfl) (List.mem_singleton.2 rfl) again
  exact ⟨note, memos, s', wA, w', uid, pay, hA, g1, g2⟩

end Cap.Examples

namespace Cap
open Spec Examples

/-- **The property is false**: with the ideal proof system of the examples there is a ledger and a wallet that holds its
change while the wallet rebuilt from the same key and the same ledger does not. -/
theorem C78_false : ¬ ∀ (_E : CapEnv) (_S : CapExt) (d : Fin 256) (b : Build) (k : UserKeyPair) (h : List Seen)
    (s : LedgerState) (w w' : Wallet) (x : RecordOpening × U64), World d b k h s w → Apart k h →
    World d b k (published h) s w' → w.Holds x → w'.Holds x := by
  intro all
  obtain ⟨w, w', h1, h2, h3, h4, h5⟩ := alice_lost
  exact h5 (all _ _ _ _ _ _ _ _ _ _ h1 h2 h4 h3)

end Cap
