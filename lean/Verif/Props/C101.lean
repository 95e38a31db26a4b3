/-
C101: the order in which transactions come, and the blocks they come in, make no difference to what anybody holds.

status: proved
note: C101_account: after any blocks a wallet holds, of each asset, what it held and no transaction of the blocks spends, and what the transactions bring it (a list that is computed transaction by transaction, without the blocks or positions), and nothing else. C101_order: if the same transactions come in another order or in other blocks, then in the end the wallet holds the same records, up to their positions, and so has the same balance in every asset. C101_swap: two blocks of transactions that spend different records can indeed come in either order. Assumed, about the values of the history only: no two awaited changes have the same commitment, the first outputs of the transactions differ, and none of the transactions spends a record that another one of them brings.
-/
import Verif.Props.C72
import Verif.Props.C96

namespace Cap

open Spec

variable [E : CapEnv] [S : CapExt]

/-- What a memo for an output tells the owner of `k`: a record that they can spend, if it can be opened with their key. -/
def Spec.tells (k : UserKeyPair) (y : F × E.AeadCt) : Option RecordOpening :=
  match ReceiverMemo.decrypt y.2 k y.1 [] with
  | .ok ro => if ro.freeze_flag = .unfrozen then some ro else none
  | .error _ => none

/-- The awaited change that is the first output of a transaction, if there is one. -/
def Spec.givesBack (awaited : List RecordOpening) (t : TransactionNote) : List RecordOpening :=
  match t.outputCommitments[0]? with
  | some rc => (awaited.find? (fun c => c.commitment = rc)).toList
  | none => []

/-- What a transaction brings the owner of `k`, who waits for the changes `awaited`: a change, if it is the first output, and
what the memos for the other outputs tell them. -/
def Spec.brings (k : UserKeyPair) (awaited : List RecordOpening) (t : TransactionNote × List E.AeadCt) : List RecordOpening :=
  givesBack awaited t.1 ++
  (t.1.outputCommitments.tail.zip t.2).filterMap (tells k)

/-- Blocks that are validated, added to the ledger and scanned one after the other. -/
inductive Spec.InBlocks (d : Fin 256) (b : Build) (k : UserKeyPair) : List Seen → LedgerState → Wallet →
    List (List (TransactionNote × List E.AeadCt)) → List Seen → LedgerState → Wallet → Prop
  | done {h s w} : InBlocks d b k h s w [] h s w
  | block {h s w txns blind who time s1 w1 recv uid blocks h' s' w'}
      (valid : validateTxnsBatch d s (txns.map (·.1)) time = .ok ())
      (inserted : s.insertBlock d.val ⟨txns.map (·.1), blind, who⟩ = .ok s1)
      (offset : uid.val = s.leaves.length)
      (scanned : w.scanBlock b (txns.map (·.1)) (txns.map (·.2)) uid = .ok (w1, recv))
      (rest : InBlocks d b k (h ++ [.block txns blind who time]) s1 w1 blocks h' s' w') :
      InBlocks d b k h s w (txns :: blocks) h' s' w'

/-- The transactions can be told apart by their first outputs, and none of them spends a record of the owner of `k` that comes
after the history `h`. -/
structure Spec.Independent (k : UserKeyPair) (h h' : List Seen) (txns : List (TransactionNote × List E.AeadCt)) : Prop where
  firsts : (txns.map (fun t => t.1.outputCommitments[0]?)).Nodup
  spends : ∀ x, Received k h' x → records h ≤ x.2.val → ∀ t ∈ txns, ownNullifier k x ∉ t.1.nullifiers

variable {d : Fin 256} {b : Build} {k : UserKeyPair} {h h' : List Seen} {s s' : LedgerState} {w w' : Wallet}
  {blocks : List (List (TransactionNote × List E.AeadCt))}

theorem Spec.InBlocks.world (follows : InBlocks d b k h s w blocks h' s' w') (world : World d b k h s w) :
    World d b k h' s' w' := by
  induction follows with
  | done => exact world
  | block valid inserted offset scanned _ ih => exact ih (.block world valid inserted offset scanned)

theorem Spec.InBlocks.extends (follows : InBlocks d b k h s w blocks h' s' w') : ∃ more, h' = h ++ more := by
  induction follows with
  | done => exact ⟨[], (List.append_nil _).symm⟩
  | block _ _ _ _ _ ih =>
    obtain ⟨more, rfl⟩ := ih
    exact ⟨_, List.append_assoc _ _ _⟩

/-- what a transaction whose first output is at `pos` brings, with the positions -/
def broughtAt (k : UserKeyPair) (awaited : List RecordOpening) (pos : ℕ) (t : TransactionNote × List E.AeadCt) :
    List (RecordOpening × ℕ) :=
  (givesBack awaited t.1).map (·, pos) ++
  ((t.1.outputCommitments.tail.zip t.2).zipIdx (pos + 1)).filterMap (fun y => (tells k y.1).map (·, y.2))

/-- what the transactions of a block bring -/
def broughtBy (k : UserKeyPair) (awaited : List RecordOpening) : ℕ → List (TransactionNote × List E.AeadCt) →
    List (RecordOpening × ℕ)
  | _, [] => []
  | pos, t :: txns => broughtAt k awaited pos t ++ broughtBy k awaited (pos + t.1.outputCommitments.length) txns

/-- what blocks bring -/
def broughtIn (k : UserKeyPair) (awaited : List RecordOpening) : ℕ → List (List (TransactionNote × List E.AeadCt)) →
    List (RecordOpening × ℕ)
  | _, [] => []
  | pos, txns :: blocks => broughtBy k awaited pos txns ++ broughtIn k awaited (pos + (outputs txns + 1)) blocks

theorem broughtAt_fst (k : UserKeyPair) (awaited : List RecordOpening) (pos : ℕ) (t : TransactionNote × List E.AeadCt) :
    (broughtAt k awaited pos t).map (·.1) = brings k awaited t := by
  unfold broughtAt brings
  rw [List.map_append, List.map_map, List.map_filterMap]
  congr 1
  · exact List.map_id _
  · have : (fun y : (F × E.AeadCt) × ℕ => ((tells k y.1).map (·, y.2)).map (·.1)) = (tells k) ∘ Prod.fst := by
      funext y
      rw [Option.map_map]
      exact Option.map_id'
    rw [this, ← List.filterMap_map, List.zipIdx_map_fst]

theorem broughtBy_fst (k : UserKeyPair) (awaited : List RecordOpening) : ∀ (txns : List (TransactionNote × List E.AeadCt)) (pos : ℕ),
    (broughtBy k awaited pos txns).map (·.1) = txns.flatMap (brings k awaited)
  | [], _ => rfl
  | t :: txns, pos => by
    rw [broughtBy, List.map_append, broughtAt_fst, broughtBy_fst k awaited txns, List.flatMap_cons]

theorem broughtIn_fst (k : UserKeyPair) (awaited : List RecordOpening) :
    ∀ (blocks : List (List (TransactionNote × List E.AeadCt))) (pos : ℕ),
    (broughtIn k awaited pos blocks).map (·.1) = blocks.flatten.flatMap (brings k awaited)
  | [], _ => rfl
  | txns :: blocks, pos => by
    rw [broughtIn, List.map_append, broughtBy_fst, broughtIn_fst k awaited blocks, List.flatten_cons, List.flatMap_append]

theorem tells_some {k : UserKeyPair} {y : F × E.AeadCt} {ro : RecordOpening} :
    tells k y = some ro ↔ ro.freeze_flag = .unfrozen ∧ ReceiverMemo.decrypt y.2 k y.1 [] = .ok ro := by
  unfold tells
  cases ReceiverMemo.decrypt y.2 k y.1 [] with
  | error e => simp
  | ok r =>
    dsimp only
    by_cases hf : r.freeze_flag = .unfrozen
    · rw [if_pos hf, Option.some.injEq, Except.ok.injEq]
      exact ⟨fun h => ⟨h ▸ hf, h⟩, fun h => h.2⟩
    · rw [if_neg hf, Except.ok.injEq]
      exact ⟨fun h => (nomatch h), fun h => absurd (h.2 ▸ h.1) hf⟩

theorem mem_broughtAt {k : UserKeyPair} {awaited : List RecordOpening}
    (unique : ∀ c ∈ awaited, ∀ c' ∈ awaited, c.commitment = c'.commitment → c = c') {pos : ℕ} {t : TransactionNote}
    {memos : List E.AeadCt} {x : RecordOpening × U64} :
    (x.1, x.2.val) ∈ broughtAt k awaited pos (t, memos) ↔ MemoAt k t memos pos x ∨ ChangeAt awaited t pos x := by
  unfold broughtAt
  rw [List.mem_append, or_comm]
  refine or_congr ?_ ?_
  · rw [List.mem_filterMap]
    constructor
    · rintro ⟨⟨⟨rc, c⟩, n⟩, h1, h2⟩
      obtain ⟨h3, h4⟩ := List.mk_mem_zipIdx_iff_le_and_getElem?_sub.1 h1
      obtain ⟨ro, h5, h6⟩ := Option.map_eq_some_iff.1 h2
      rw [Prod.mk.injEq] at h6
      obtain ⟨rfl, h6⟩ := h6
      dsimp only at h6 h5
      obtain ⟨h7, h8⟩ := tells_some.1 h5
      obtain ⟨h9, h10⟩ := List.getElem?_zip_eq_some.1 h4
      exact ⟨h7, n - (pos + 1), rc, c, by rw [← List.getElem?_tail]; exact h9, h10, h8, by omega⟩
    · rintro ⟨hf, j, rc, c, h1, h2, h3, h4⟩
      refine ⟨((rc, c), pos + 1 + j), List.mk_mem_zipIdx_iff_le_and_getElem?_sub.2 ⟨by omega, ?_⟩, ?_⟩
      · rw [Nat.add_sub_cancel_left]
        exact List.getElem?_zip_eq_some.2 ⟨by rw [List.getElem?_tail]; exact h1, h2⟩
      · rw [tells_some.2 ⟨hf, h3⟩, Option.map_some, h4]
  · rw [List.mem_map]
    unfold ChangeAt givesBack
    dsimp only
    cases t.outputCommitments[0]? with
    | none => simp
    | some rc =>
      dsimp only
      constructor
      · rintro ⟨c, h1, h2⟩
        rw [Option.mem_toList] at h1
        rw [Prod.mk.injEq] at h2
        obtain ⟨rfl, h2⟩ := h2
        have h3 := List.find?_some h1
        exact ⟨List.mem_of_find?_eq_some h1, by simpa using (of_decide_eq_true h3).symm, h2.symm⟩
      · rintro ⟨h1, h2, h3⟩
        rw [Option.some.injEq] at h2
        refine ⟨x.1, ?_, by rw [h3]⟩
        rw [Option.mem_toList]
        cases hf : awaited.find? (fun c => c.commitment = rc) with
        | none => simpa [h2] using List.find?_eq_none.1 hf x.1 h1
        | some c =>
          rw [unique c (List.mem_of_find?_eq_some hf) x.1 h1 (by rw [← h2]; simpa using List.find?_some hf)]

theorem mem_broughtBy {k : UserKeyPair} {awaited : List RecordOpening}
    (unique : ∀ c ∈ awaited, ∀ c' ∈ awaited, c.commitment = c'.commitment → c = c') {x : RecordOpening × U64} :
    ∀ {txns : List (TransactionNote × List E.AeadCt)} {pos : ℕ}, (x.1, x.2.val) ∈ broughtBy k awaited pos txns ↔
      ∃ t memos n, InList txns t memos n ∧ (MemoAt k t memos (pos + n) x ∨ ChangeAt awaited t (pos + n) x)
  | [], pos => by
    constructor
    · exact fun h => (nomatch h)
    · rintro ⟨t, memos, n, h, -⟩
      exact (nomatch h.mem)
  | (t, memos) :: txns, pos => by
    rw [broughtBy, List.mem_append, mem_broughtAt unique, mem_broughtBy unique]
    constructor
    · rintro (h | ⟨t', memos', n, h1, h2⟩)
      · exact ⟨t, memos, 0, .head, h⟩
      · exact ⟨t', memos', _, h1.tail, by rw [← Nat.add_assoc]; exact h2⟩
    · rintro ⟨t', memos', n, h1, h2⟩
      rcases h1.cases with ⟨he, rfl⟩ | ⟨m, rfl, h3⟩
      · cases he
        exact .inl h2
      · exact .inr ⟨t', memos', m, h3, by rw [← Nat.add_assoc] at h2; exact h2⟩

theorem broughtAt_order (k : UserKeyPair) (awaited : List RecordOpening) (pos : ℕ) (t : TransactionNote × List E.AeadCt) :
    ((broughtAt k awaited pos t).map (·.2)).Pairwise (· < ·) ∧
      ∀ y ∈ broughtAt k awaited pos t, pos ≤ y.2 ∧ y.2 < pos + t.1.outputCommitments.length := by
  unfold broughtAt
  have key : ∀ y ∈ ((t.1.outputCommitments.tail.zip t.2).zipIdx (pos + 1)).filterMap (fun y => (tells k y.1).map (·, y.2)),
      pos + 1 ≤ y.2 ∧ y.2 < pos + t.1.outputCommitments.length := by
    intro y hy
    obtain ⟨⟨⟨rc, c⟩, n⟩, h1, h2⟩ := List.mem_filterMap.1 hy
    obtain ⟨h3, h4⟩ := List.mk_mem_zipIdx_iff_le_and_getElem?_sub.1 h1
    obtain ⟨ro, -, rfl⟩ := Option.map_eq_some_iff.1 h2
    obtain ⟨h5, -⟩ := List.getElem?_zip_eq_some.1 h4
    obtain ⟨h6, -⟩ := List.getElem?_eq_some_iff.1 h5
    rw [List.length_tail] at h6
    dsimp only
    omega
  have one : ∀ y ∈ (givesBack awaited t.1).map (·, pos), y.2 = pos ∧ 0 < t.1.outputCommitments.length := by
    intro y hy
    obtain ⟨c, h1, rfl⟩ := List.mem_map.1 hy
    refine ⟨rfl, ?_⟩
    cases hl : t.1.outputCommitments with
    | nil =>
      unfold givesBack at h1
      rw [hl] at h1
      exact (nomatch h1)
    | cons => simp
  refine ⟨?_, fun y hy => ?_⟩
  · rw [List.map_append, List.pairwise_append]
    refine ⟨?_, ?_, ?_⟩
    · unfold givesBack
      cases t.1.outputCommitments[0]? with
      | none => exact .nil
      | some rc =>
        dsimp only
        cases awaited.find? (fun c => c.commitment = rc) with
        | none => exact .nil
        | some c => exact List.pairwise_singleton _ _
    · rw [List.pairwise_map]
      refine List.Pairwise.filterMap (R := fun a b => a.2 < b.2) _ ?_ ?_
      · intro a a' haa c hc c' hc'
        obtain ⟨_, -, rfl⟩ := Option.map_eq_some_iff.1 hc
        obtain ⟨_, -, rfl⟩ := Option.map_eq_some_iff.1 hc'
        exact haa
      · rw [← List.pairwise_map (f := Prod.snd) (R := (· < ·)), List.zipIdx_map_snd]
        exact List.pairwise_lt_range'
    · intro p hp q hq
      obtain ⟨y, hy, rfl⟩ := List.mem_map.1 hp
      obtain ⟨z, hz, rfl⟩ := List.mem_map.1 hq
      have h1 := one y hy
      have h2 := key z hz
      omega
  · rcases List.mem_append.1 hy with hy | hy
    · have := one y hy
      omega
    · have := key y hy
      omega

theorem broughtBy_order (k : UserKeyPair) (awaited : List RecordOpening) :
    ∀ (txns : List (TransactionNote × List E.AeadCt)) (pos : ℕ),
    ((broughtBy k awaited pos txns).map (·.2)).Pairwise (· < ·) ∧
      ∀ y ∈ broughtBy k awaited pos txns, pos ≤ y.2 ∧ y.2 < pos + outputs txns
  | [], _ => ⟨.nil, fun _ h => (nomatch h)⟩
  | t :: txns, pos => by
    obtain ⟨h1, h2⟩ := broughtAt_order k awaited pos t
    obtain ⟨h3, h4⟩ := broughtBy_order k awaited txns (pos + t.1.outputCommitments.length)
    rw [broughtBy, outputs_cons]
    refine ⟨?_, fun y hy => ?_⟩
    · rw [List.map_append, List.pairwise_append]
      refine ⟨h1, h3, fun p hp q hq => ?_⟩
      obtain ⟨y, hy, rfl⟩ := List.mem_map.1 hp
      obtain ⟨z, hz, rfl⟩ := List.mem_map.1 hq
      have := h2 y hy
      have := h4 z hz
      omega
    · rcases List.mem_append.1 hy with hy | hy
      · have := h2 y hy
        omega
      · have := h4 y hy
        omega

theorem broughtIn_order (k : UserKeyPair) (awaited : List RecordOpening) :
    ∀ (blocks : List (List (TransactionNote × List E.AeadCt))) (pos : ℕ),
    ((broughtIn k awaited pos blocks).map (·.2)).Pairwise (· < ·) ∧ ∀ y ∈ broughtIn k awaited pos blocks, pos ≤ y.2
  | [], _ => ⟨.nil, fun _ h => (nomatch h)⟩
  | txns :: blocks, pos => by
    obtain ⟨h1, h2⟩ := broughtBy_order k awaited txns pos
    obtain ⟨h3, h4⟩ := broughtIn_order k awaited blocks (pos + (outputs txns + 1))
    rw [broughtIn]
    refine ⟨?_, fun y hy => ?_⟩
    · rw [List.map_append, List.pairwise_append]
      refine ⟨h1, h3, fun p hp q hq => ?_⟩
      obtain ⟨y, hy, rfl⟩ := List.mem_map.1 hp
      obtain ⟨z, hz, rfl⟩ := List.mem_map.1 hq
      have := h2 y hy
      have := h4 z hz
      omega
    · rcases List.mem_append.1 hy with hy | hy
      · exact (h2 y hy).1
      · have := h4 y hy
        omega

/-- a transaction of a list whose first outputs differ is found by its first output -/
theorem InList.same {t t' : TransactionNote} {memos memos' : List E.AeadCt} {n n' : ℕ} :
    ∀ {l : List (TransactionNote × List E.AeadCt)}, (l.map (fun t => t.1.outputCommitments[0]?)).Nodup →
    InList l t memos n → InList l t' memos' n' → t.outputCommitments[0]? = t'.outputCommitments[0]? → n = n'
  | [], _, h, _, _ => (nomatch h.mem)
  | a :: l, nd, h1, h2, he => by
    rw [List.map_cons, List.nodup_cons] at nd
    rcases h1.cases with ⟨rfl, rfl⟩ | ⟨m, rfl, g1⟩ <;> rcases h2.cases with ⟨e2, rfl⟩ | ⟨m', rfl, g2⟩
    · rfl
    · exact absurd (List.mem_map.2 ⟨_, g2.mem, he.symm⟩) nd.1
    · subst e2
      exact absurd (List.mem_map.2 ⟨_, g1.mem, he⟩) nd.1
    · rw [InList.same nd.2 g1 g2 he]

/-- a scan adds no change to those that are awaited -/
theorem scan_changes (world : World d b k h s w) {txns : List (TransactionNote × List E.AeadCt)} {blind : F} {who : UserPubKey}
    {recv : List RecordOpening} {uid : U64}
    (inserted : s.insertBlock d.val ⟨txns.map (·.1), blind, who⟩ = .ok s') (offset : uid.val = s.leaves.length)
    (scanned : w.scanBlock b (txns.map (·.1)) (txns.map (·.2)) uid = .ok (w', recv)) : ∀ c ∈ w'.changes, c ∈ w.changes := by
  have i := worldOk world
  have i' := fun time (valid : validateTxnsBatch d s (txns.map (·.1)) time = .ok ()) =>
    worldOk (World.block world valid inserted offset scanned)
  obtain ⟨fee, -, e1, -, -, e4, -⟩ := LedgerState.insertBlock_ok inserted
  dsimp only at e1
  unfold Wallet.scanBlock at scanned
  rw [if_neg (by simp), zip_map_self] at scanned
  have hlen : s'.leaves.length = s.leaves.length + outputs txns + 1 := by
    rw [e1, List.length_append, List.length_append, outputs_length, List.length_singleton]
  obtain ⟨w1, recv1, a1, -, -, a4, -⟩ := Wallet.scanTxns_spec b txns i.ok (off := uid)
    (by omega) (Wallet.scanTxns_lens scanned)
  rw [a1] at scanned
  cases scanned
  exact a4

/-- **What is held after blocks.** -/
theorem follows_holds (follows : InBlocks d b k h s w blocks h' s' w') (world : World d b k h s w) (apart : Apart k h')
    {awaited : List RecordOpening}
    (unique : ∀ c ∈ awaited, ∀ c' ∈ awaited, c.commitment = c'.commitment → c = c')
    (waits : ∀ c : RecordOpening, (∃ t ∈ blocks.flatten, t.1.outputCommitments[0]? = some c.commitment) →
      (c ∈ w.changes ↔ c ∈ awaited))
    (independent : Independent k h h' blocks.flatten) (x : RecordOpening × U64) :
    w'.Holds x ↔ (w.Holds x ∧ ∀ t ∈ blocks.flatten, ownNullifier k x ∉ t.1.nullifiers) ∨
      (x.1, x.2.val) ∈ broughtIn k awaited (records h) blocks := by
  induction follows with
  | done => simp [broughtIn]
  | @block h s w txns blind who time s1 w1 recv uid blocks h' s' w' valid inserted offset scanned rest ih =>
    have world1 := World.block (time := time) world valid inserted offset scanned
    obtain ⟨more, rfl⟩ := rest.extends
    obtain ⟨f1, f2, f3, f4, f5⟩ := scan_facts world inserted offset scanned
    have f6 := scan_changes world inserted offset scanned
    have rec1 : records (h ++ [.block txns blind who time]) = records h + (outputs txns + 1) := by
      simp [records, Seen.size]
    have apart1 : Apart k (h ++ [.block txns blind who time]) := apart.prefix
    rw [List.flatten_cons] at waits independent
    have nd : (txns.map (fun t => t.1.outputCommitments[0]?)).Nodup := by
      have := independent.firsts
      rw [List.map_append, List.nodup_append] at this
      exact this.1
    have cross : ∀ t ∈ txns, ∀ u ∈ blocks.flatten, t.1.outputCommitments[0]? ≠ u.1.outputCommitments[0]? := by
      intro t ht u hu
      have := independent.firsts
      rw [List.map_append, List.nodup_append] at this
      exact this.2.2 _ (List.mem_map.2 ⟨t, ht, rfl⟩) _ (List.mem_map.2 ⟨u, hu, rfl⟩)
    have rest' := ih world1 apart (fun c hc => by
        obtain ⟨u, hu, hf⟩ := hc
        rw [← waits c ⟨u, List.mem_append_right _ hu, hf⟩]
        refine ⟨f6 c, fun hc => (f4 c hc).resolve_right ?_⟩
        rintro ⟨t, memos, n, uid', h1, ⟨-, h2, -⟩, -⟩
        exact cross _ h1.mem u hu (h2.trans hf.symm))
      ⟨by
        have := independent.firsts
        rw [List.map_append, List.nodup_append] at this
        exact this.2.1, fun y hy hr u hu => independent.spends y hy (by omega) u (List.mem_append_right _ hu)⟩
    -- what comes with this block is not spent by any of the transactions
    have fresh : ∀ y : RecordOpening × U64, (y.1, y.2.val) ∈ broughtBy k awaited (records h) txns →
        ∀ t ∈ txns ++ blocks.flatten, ownNullifier k y ∉ t.1.nullifiers := by
      intro y hy
      have hpos := ((broughtBy_order k awaited txns (records h)).2 _ hy).1
      refine independent.spends y ?_ hpos
      obtain ⟨t, memos, n, ⟨earlier, later, h1, rfl⟩, h2⟩ := (mem_broughtBy unique).1 hy
      have at_ : At (h ++ [.block txns blind who time] ++ more) t memos (records h + outputs earlier) :=
        ⟨h, txns, blind, who, time, more, earlier, later, by simp, h1, rfl⟩
      rcases h2 with ⟨hf, j, rc, c, g1, g2, g3, g4⟩ | ⟨g1, g2, g3⟩
      · exact .memo at_ g1 g2 g3 g4
      · have hc := (waits y.1 ⟨(t, memos), by rw [h1]; simp, g2⟩).2 g1
        exact .change (List.mem_append_left _ (List.mem_append_left _ ((worldOk world).changes _ hc).1)) at_ g2 g3
    have here : w1.Holds x ↔ (w.Holds x ∧ ∀ t ∈ txns, ownNullifier k x ∉ t.1.nullifiers) ∨
        (x.1, x.2.val) ∈ broughtBy k awaited (records h) txns := by
      constructor
      · intro hx
        rcases f2 x hx with h1 | ⟨t, memos, n, h1, h2⟩
        · exact .inl ⟨h1, fun t ht hn => C59_gone (more := []) world1 apart1 x ht hn hx⟩
        · refine .inr ((mem_broughtBy unique).2 ⟨t, memos, n, h1, h2.imp_right ?_⟩)
          rintro ⟨g1, g2, g3⟩
          exact ⟨(waits x.1 ⟨_, List.mem_append_left _ h1.mem, g2⟩).1 g1, g2, g3⟩
      · rintro (⟨h1, h2⟩ | h1)
        · refine (f1 x h1).resolve_right ?_
          rintro ⟨t, ht, hn⟩
          exact h2 t ht hn
        · have not : ¬ ∃ t ∈ txns, ownNullifier k x ∈ t.1.nullifiers := by
            rintro ⟨t, ht, hn⟩
            exact fresh x h1 t (List.mem_append_left _ ht) hn
          obtain ⟨t, memos, n, h3, h4 | h4⟩ := (mem_broughtBy unique).1 h1
          · exact (f3 x t memos n h3 h4).resolve_right not
          · obtain ⟨g1, g2, g3⟩ := h4
            have hc := (waits x.1 ⟨_, List.mem_append_left _ h3.mem, g2⟩).2 g1
            rcases f4 x.1 hc with h5 | ⟨t', memos', n', uid', h5, ⟨-, h6, h7⟩, h8⟩
            · exact absurd g2 (f5 x.1 h5 (fun c' hc' he => unique c'
                ((waits c' ⟨_, List.mem_append_left _ h3.mem, by rw [he]; exact g2⟩).1 hc') x.1 g1 he) _ h3.mem)
            · have hn := InList.same nd h3 h5 (g2.trans h6.symm)
              subst hn
              have : uid' = x.2 := Fin.ext (h7.trans g3.symm)
              subst this
              exact h8.resolve_right not
    rw [rest', here, rec1, broughtIn, List.mem_append, List.flatten_cons]
    constructor
    · rintro (⟨⟨h1, h2⟩ | h1, h3⟩ | h1)
      · refine .inl ⟨h1, fun t ht => ?_⟩
        rcases List.mem_append.1 ht with ht | ht
        · exact h2 t ht
        · exact h3 t ht
      · exact .inr (.inl h1)
      · exact .inr (.inr h1)
    · rintro (⟨h1, h2⟩ | h1 | h1)
      · exact .inl ⟨.inl ⟨h1, fun t ht => h2 t (List.mem_append_left _ ht)⟩, fun t ht => h2 t (List.mem_append_right _ ht)⟩
      · exact .inl ⟨.inr h1, fun t ht => fresh x h1 t (List.mem_append_right _ ht)⟩
      · exact .inr h1

theorem broughtIn_small (follows : InBlocks d b k h s w blocks h' s' w') (world : World d b k h s w)
    {awaited : List RecordOpening} : ∀ y ∈ broughtIn k awaited (records h) blocks, y.2 < 2 ^ 64 := by
  have last := (worldOk (follows.world world)).small
  rw [(worldOk (follows.world world)).size] at last
  suffices hs : ∀ y ∈ broughtIn k awaited (records h) blocks, y.2 < records h' from fun y hy => (hs y hy).trans last
  clear last world
  induction follows with
  | done => exact fun _ h => (nomatch h)
  | @block h s w txns blind who time s1 w1 recv uid blocks h' s' w' valid inserted offset scanned rest ih =>
    have rec1 : records (h ++ [.block txns blind who time]) = records h + (outputs txns + 1) := by
      simp [records, Seen.size]
    obtain ⟨more, rfl⟩ := rest.extends
    have rec2 : records (h ++ [.block txns blind who time]) ≤ records (h ++ [.block txns blind who time] ++ more) := by
      simp [records]
    intro y hy
    rw [broughtIn] at hy
    rcases List.mem_append.1 hy with hy | hy
    · have := ((broughtBy_order k awaited txns (records h)).2 y hy).2
      omega
    · exact ih y (by rw [rec1]; exact hy)

/-- **The account.** -/
theorem C101_account (world : World d b k h s w) (follows : InBlocks d b k h s w blocks h' s' w') (apart : Apart k h')
    (unique : ∀ c ∈ w.changes, ∀ c' ∈ w.changes, c.commitment = c'.commitment → c = c')
    (independent : Independent k h h' blocks.flatten) {code : AssetCode} {before after : List (RecordOpening × U64)}
    (hb : Coins w code before) (ha : Coins w' code after) :
    ∃ kept : List (RecordOpening × U64), kept.Nodup ∧
      (∀ x, x ∈ kept ↔ x ∈ before ∧ ∀ t ∈ blocks.flatten, ownNullifier k x ∉ t.1.nullifiers) ∧
      (after.map (·.1)).Perm (kept.map (·.1) ++
        (blocks.flatten.flatMap (brings k w.changes)).filter (fun ro => ro.asset_def.code = code)) := by
  classical
  have holds := follows_holds follows world apart unique (fun c _ => Iff.rfl) independent
  refine ⟨before.filter (fun x => decide (∀ t ∈ blocks.flatten, ownNullifier k x ∉ t.1.nullifiers)), hb.1.filter _,
    fun x => by rw [List.mem_filter, decide_eq_true_iff], ?_⟩
  set kept := before.filter (fun x => decide (∀ t ∈ blocks.flatten, ownNullifier k x ∉ t.1.nullifiers)) with hk
  have mk : ∀ x, x ∈ kept ↔ x ∈ before ∧ ∀ t ∈ blocks.flatten, ownNullifier k x ∉ t.1.nullifiers := fun x => by
    rw [hk, List.mem_filter, decide_eq_true_iff]
  obtain ⟨order, bound⟩ := broughtIn_order k w.changes blocks (records h)
  set came := broughtIn k w.changes (records h) blocks with hc
  have fst : (blocks.flatten.flatMap (brings k w.changes)).filter (fun ro => ro.asset_def.code = code) =
      (came.filter (fun y => y.1.asset_def.code = code)).map (·.1) := by
    rw [← broughtIn_fst k w.changes blocks (records h), ← hc, List.filter_map]
    rfl
  let f : RecordOpening × U64 → RecordOpening × ℕ := fun x => (x.1, x.2.val)
  have inj : Function.Injective f := by
    rintro ⟨a, m⟩ ⟨a', m'⟩ he
    obtain ⟨h1, h2⟩ := Prod.mk.inj he
    exact Prod.ext h1 (Fin.ext h2)
  have once : came.Nodup := by
    have : (came.map (·.2)).Nodup := order.imp (fun h => Nat.ne_of_lt h)
    exact List.Nodup.of_map _ this
  have small : ∀ y ∈ came, y.2 < 2 ^ 64 := broughtIn_small follows world
  have perm : (after.map f).Perm (kept.map f ++ came.filter (fun y => y.1.asset_def.code = code)) := by
    refine (List.perm_ext_iff_of_nodup (ha.1.map inj) ?_).2 fun y => ?_
    · rw [List.nodup_append]
      refine ⟨(hb.1.filter _).map inj, once.filter _, fun y hy z hz he => ?_⟩
      subst he
      obtain ⟨x, hx, rfl⟩ := List.mem_map.1 hy
      have h1 := held_before world ((hb.2 x).1 ((mk x).1 hx).1).1
      have h2 := bound _ (List.mem_filter.1 hz).1
      change records h ≤ x.2.val at h2
      omega
    · rw [List.mem_append, List.mem_map, List.mem_map, List.mem_filter, decide_eq_true_iff]
      constructor
      · rintro ⟨x, hx, rfl⟩
        obtain ⟨h1, h2⟩ := (ha.2 x).1 hx
        rcases (holds x).1 h1 with ⟨h3, h4⟩ | h3
        · exact .inl ⟨x, (mk x).2 ⟨(hb.2 x).2 ⟨h3, h2⟩, h4⟩, rfl⟩
        · exact .inr ⟨h3, h2⟩
      · rintro (⟨x, hx, rfl⟩ | ⟨h1, h2⟩)
        · obtain ⟨h1, h2⟩ := (mk x).1 hx
          obtain ⟨h3, h4⟩ := (hb.2 x).1 h1
          exact ⟨x, (ha.2 x).2 ⟨(holds x).2 (.inl ⟨h3, h2⟩), h4⟩, rfl⟩
        · refine ⟨(y.1, ⟨y.2, small y h1⟩), (ha.2 _).2 ⟨(holds _).2 (.inr h1), h2⟩, rfl⟩
  have := perm.map Prod.fst
  rw [List.map_append, List.map_map, List.map_map] at this
  rw [fst]
  exact this

/-- the records of an asset that a wallet holds can be listed -/
theorem coins_exist (w : Wallet) (code : AssetCode) : ∃ l, Coins w code l := by
  classical
  refine ⟨((w.unspent.flatMap (·.2)).filter (fun x => x.1.asset_def.code = code)).dedup, List.nodup_dedup _, fun x => ?_⟩
  rw [List.mem_dedup, List.mem_filter, List.mem_flatMap, decide_eq_true_iff]
  rfl

/-- **The order, and the blocks, make no difference.** -/
theorem C101_order (world : World d b k h s w) {blocks' : List (List (TransactionNote × List E.AeadCt))} {h1 h2 : List Seen}
    {s1 s2 : LedgerState} {w1 w2 : Wallet} (one : InBlocks d b k h s w blocks h1 s1 w1)
    (other : InBlocks d b k h s w blocks' h2 s2 w2) (same : blocks.flatten.Perm blocks'.flatten)
    (apart1 : Apart k h1) (apart2 : Apart k h2)
    (unique : ∀ c ∈ w.changes, ∀ c' ∈ w.changes, c.commitment = c'.commitment → c = c')
    (independent1 : Independent k h h1 blocks.flatten) (independent2 : Independent k h h2 blocks'.flatten)
    {code : AssetCode} {coins1 coins2 : List (RecordOpening × U64)} (hc1 : Coins w1 code coins1) (hc2 : Coins w2 code coins2) :
    (coins1.map (·.1)).Perm (coins2.map (·.1)) ∧ total (coins1.map (·.1)) = total (coins2.map (·.1)) := by
  obtain ⟨before, hb⟩ := coins_exist w code
  obtain ⟨kept1, n1, m1, p1⟩ := C101_account world one apart1 unique independent1 hb hc1
  obtain ⟨kept2, n2, m2, p2⟩ := C101_account world other apart2 unique independent2 hb hc2
  have hk : kept1.Perm kept2 := (List.perm_ext_iff_of_nodup n1 n2).2 fun x => by
    rw [m1, m2]
    simp only [same.mem_iff]
  have perm : (coins1.map (·.1)).Perm (coins2.map (·.1)) :=
    p1.trans (((hk.map _).append ((same.flatMap_right _).filter _)).trans p2.symm)
  exact ⟨perm, (perm.map _).sum_eq⟩

/-- **Two blocks of transactions that spend different records can come in either order.** -/
theorem C101_swap (batch : SnarkBatch) (world : World d b k h s w) {one other : List (TransactionNote × List E.AeadCt)}
    {blind blind' : F} {who who' : UserPubKey} {time time' : U64} {s1 s12 : LedgerState} (ne : one ≠ []) (ne' : other ≠ [])
    (valid : validateTxnsBatch d s (one.map (·.1)) time = .ok ())
    (valid' : validateTxnsBatch d s (other.map (·.1)) time' = .ok ())
    (apart : ∀ t ∈ one, ∀ u ∈ other, ∀ x ∈ t.1.nullifiers, x ∉ u.1.nullifiers)
    (inserted : s.insertBlock d.val ⟨one.map (·.1), blind, who⟩ = .ok s1)
    (inserted' : s1.insertBlock d.val ⟨other.map (·.1), blind', who'⟩ = .ok s12)
    (memos : ∀ t ∈ one ++ other, t.1.outputCommitments.length = t.2.length + 1) :
    ∃ w12 s21 w21, InBlocks d b k h s w [one, other] (h ++ [.block one blind who time] ++ [.block other blind' who' time']) s12 w12 ∧
      InBlocks d b k h s w [other, one] (h ++ [.block other blind' who' time'] ++ [.block one blind who time]) s21 w21 := by
  obtain ⟨v12, s2, s21, i2, v21, i21, -⟩ := C72_commute batch (a := ⟨one.map (·.1), blind, who⟩)
    (b := ⟨other.map (·.1), blind', who'⟩) (by simpa using ne) (by simpa using ne') valid valid'
    (by
      intro t ht u hu
      obtain ⟨t', ht', rfl⟩ := List.mem_map.1 ht
      obtain ⟨u', hu', rfl⟩ := List.mem_map.1 hu
      exact apart t' ht' u' hu') inserted inserted'
  have off : ∀ {h : List Seen} {s : LedgerState} {w : Wallet}, World d b k h s w → ∃ uid : U64, uid.val = s.leaves.length :=
    fun hw => ⟨⟨_, (worldOk hw).small⟩, rfl⟩
  obtain ⟨u, hu⟩ := off world
  obtain ⟨wa, ra, sa, worlda⟩ := C59_scans world valid inserted hu (fun t ht => memos t (List.mem_append_left _ ht))
  obtain ⟨wb, rb, sb, worldb⟩ := C59_scans world valid' i2 hu (fun t ht => memos t (List.mem_append_right _ ht))
  obtain ⟨ua, hua⟩ := off worlda
  obtain ⟨ub, hub⟩ := off worldb
  obtain ⟨w12, r12, s12', -⟩ := C59_scans worlda v12 inserted' hua (fun t ht => memos t (List.mem_append_right _ ht))
  obtain ⟨w21, r21, s21', -⟩ := C59_scans worldb v21 i21 hub (fun t ht => memos t (List.mem_append_left _ ht))
  exact ⟨w12, s21, w21, .block valid inserted hu sa (.block v12 inserted' hua s12' .done),
    .block valid' i2 hu sb (.block v21 i21 hub s21' .done)⟩

end Cap

namespace Cap.Examples
open Toy Spec

/-! The two mints of C52, of which the second one is Bob's, and both give him 1000 of the asset. -/

/-- the ledger after both grants -/
def led101 : LedgerState := ⟨richTree, [], [treeRoot 2 richTree, treeRoot 2 [rich1.commitment], treeRoot 2 []]⟩
/-- what Bob has seen: he is told of his record, and waits for the change of his mint -/
def seen101 : List Seen := [.grant rich1, .grant rich2, .told rich2 1, .expecting richFee2.fee_chg_ro]
/-- the wallet of Bob then -/
def wallet101 : Wallet := { (Wallet.new bob).addRecordOpening rich2 1 with changes := [richFee2.fee_chg_ro] }
noncomputable def memo101 : Toy.E.AeadCt := okVal (ReceiverMemo.fromRo 0 mintRec []) rfl
theorem memo101_eq : ReceiverMemo.fromRo 0 mintRec [] = .ok memo101 := okVal_eq _ rfl
/-- the mint of somebody else, with its memo -/
noncomputable def tx101 : TransactionNote × List Toy.E.AeadCt := (.mint richNote1, [memo101])
/-- the mint of Bob, with its memo -/
noncomputable def own101 : TransactionNote × List Toy.E.AeadCt := (.mint richNote2, [memo101])

theorem world101 : World 2 .debug bob seen101 led101 wallet101 := by
  have w0 : World 2 .debug bob [.grant rich1, .grant rich2] led101 (Wallet.new bob) :=
    .grant (h := [.grant rich1]) (s := ⟨[rich1.commitment], [], [treeRoot 2 [rich1.commitment], treeRoot 2 []]⟩)
      (.grant .start (bind_ok_iff.2 ⟨_, room (by decide), rfl⟩)) (bind_ok_iff.2 ⟨_, room (by decide), rfl⟩)
  exact .expecting (h := [.grant rich1, .grant rich2, .told rich2 1])
    (.told (h := [.grant rich1, .grant rich2]) w0 rfl rfl rfl (by simp [led101])) rfl rfl

theorem outputs101 : tx101.1.outputCommitments = [richFee1.fee_chg_ro.commitment, mintRec.commitment] ∧
    own101.1.outputCommitments = [richFee2.fee_chg_ro.commitment, mintRec.commitment] := by
  obtain ⟨sk1, e1⟩ := rich1_eq
  obtain ⟨sk2, e2⟩ := rich2_eq
  obtain ⟨-, -, a3, a4, -⟩ := C18_fields e1
  obtain ⟨-, -, b3, b4, -⟩ := C18_fields e2
  refine ⟨?_, ?_⟩
  · show [richNote1.chg_comm, richNote1.mint_comm] = _
    rw [a3, a4]
  · show [richNote2.chg_comm, richNote2.mint_comm] = _
    rw [b3, b4]

theorem valid101 (time : U64) : validateTxnsBatch 2 led101 [tx101.1] time = .ok () ∧
    validateTxnsBatch 2 led101 [own101.1] time = .ok () := by
  obtain ⟨sk1, e1⟩ := rich1_eq
  obtain ⟨sk2, e2⟩ := rich2_eq
  obtain ⟨a1, -, -, -, a5, a6, -⟩ := C18_fields e1
  obtain ⟨b1, -, -, -, b5, b6, -⟩ := C18_fields e2
  constructor
  · refine validate_made complete batch (ts := [richTxn1]) (by simp) ?_ ?_ ?_ ?_ ?_
    · intro t ht; obtain rfl := List.mem_singleton.1 ht; exact .mint keys2 e1
    · intro t ht
      obtain rfl := List.mem_singleton.1 ht
      show richNote1.mint_amount.val < _
      rw [a1]; decide +kernel
    · intro t ht
      obtain rfl := List.mem_singleton.1 ht
      show richNote1.aux_info.merkle_root ∈ _
      rw [a6]; exact List.mem_cons_self
    · show [richNote1.input_nullifier].Nodup
      simp
    · intro t _ x _
      simp [led101]
  · refine validate_made complete batch (ts := [richTxn2]) (by simp) ?_ ?_ ?_ ?_ ?_
    · intro t ht; obtain rfl := List.mem_singleton.1 ht; exact .mint keys2 e2
    · intro t ht
      obtain rfl := List.mem_singleton.1 ht
      show richNote2.mint_amount.val < _
      rw [b1]; decide +kernel
    · intro t ht
      obtain rfl := List.mem_singleton.1 ht
      show richNote2.aux_info.merkle_root ∈ _
      rw [b6]; exact List.mem_cons_self
    · show [richNote2.input_nullifier].Nodup
      simp
    · intro t _ x _
      simp [led101]

/-- the records that Bob may get to know of, in either order -/
def mine101 : List (RecordOpening × U64) :=
  [(rich2, 1), (mintRec, 3), (mintRec, 6), (richFee2.fee_chg_ro, 2), (richFee2.fee_chg_ro, 5)]

theorem nullifiers101 : (mine101.map (ownNullifier bob)).Nodup := by decide +kernel
theorem unspent101 : (mine101.tail.all (fun x =>
    decide (ownNullifier bob x ≠ richNote1.input_nullifier ∧ ownNullifier bob x ≠ richNote2.input_nullifier))) = true := by
  decide +kernel

/-- what Bob gets to know of in a history of the two mints -/
theorem received101 {one other : TransactionNote × List Toy.E.AeadCt}
    (which : (one = tx101 ∧ other = own101) ∨ (one = own101 ∧ other = tx101)) {blind blind' : F} {who who' : UserPubKey}
    {time time' : U64} :
    Apart bob (seen101 ++ [.block [one] blind who time] ++ [.block [other] blind' who' time']) ∧
    Independent bob seen101 (seen101 ++ [.block [one] blind who time] ++ [.block [other] blind' who' time'])
      [one, other] := by
  have out : ∀ t : TransactionNote × List Toy.E.AeadCt, t = one ∨ t = other → t.2 = [memo101] ∧ t.1.outputCommitments.length = 2 ∧
      t.1.outputCommitments[1]? = some mintRec.commitment ∧ (∀ x ∈ t.1.nullifiers, x = richNote1.input_nullifier ∨
        x = richNote2.input_nullifier) := by
    intro t ht
    have : t = tx101 ∨ t = own101 := by
      rcases which with ⟨rfl, rfl⟩ | ⟨rfl, rfl⟩
      · exact ht
      · exact ht.symm
    rcases this with rfl | rfl
    · refine ⟨rfl, rfl, by rw [outputs101.1]; rfl, fun x hx => .inl (List.mem_singleton.1 hx)⟩
    · refine ⟨rfl, rfl, by rw [outputs101.2]; rfl, fun x hx => .inr (List.mem_singleton.1 hx)⟩
  set h' := seen101 ++ [.block [one] blind who time] ++ [.block [other] blind' who' time'] with hh
  have hat : ∀ {t : TransactionNote} {m : List Toy.E.AeadCt} {pos : ℕ}, At h' t m pos →
      ((t, m) = one ∧ pos = 2) ∨ ((t, m) = other ∧ pos = 5) := by
    intro t m pos a
    rcases a.cases with a | ⟨txns, blind, who, time, n, h1, h2, rfl⟩
    · rcases a.cases with a | ⟨txns, blind, who, time, n, h1, h2, rfl⟩
      · exfalso
        obtain ⟨before, txns, blind, who, time, after, -, -, h1, -⟩ := a
        have : Seen.block txns blind who time ∈ seen101 := by rw [h1]; simp
        simp [seen101] at this
      · cases h1
        rcases h2.cases with ⟨h3, h4⟩ | ⟨m, -, h3⟩
        · exact .inl ⟨h3.symm, by rw [h4]; rfl⟩
        · exact (nomatch h3.mem)
    · cases h1
      rcases h2.cases with ⟨h3, h4⟩ | ⟨m, -, h3⟩
      · refine .inr ⟨h3.symm, ?_⟩
        have := (out one (.inl rfl)).2.1
        simp only [h4, records, seen101, Seen.size, outputs, List.map_append, List.map_cons, List.map_nil, List.sum_append,
          List.sum_cons, List.sum_nil, this, Nat.reduceAdd]
      · exact (nomatch h3.mem)
  have hr : ∀ x, Received bob h' x → x ∈ mine101 := by
    intro x hx
    cases hx with
    | told mem =>
      simp only [hh, seen101, List.cons_append, List.nil_append, List.mem_cons, List.not_mem_nil, or_false, reduceCtorEq,
        false_or, Seen.told.injEq] at mem
      rw [mem.1, mem.2]
      exact List.mem_cons_self
    | memo a o m op p =>
      rename_i t ms pos j rc c ro uid
      have ht : (t, ms) = one ∨ (t, ms) = other := (hat a).imp (·.1) (·.1)
      have hp : pos = 2 ∨ pos = 5 := (hat a).imp (·.2) (·.2)
      obtain ⟨o1, -, o3, -⟩ := out _ ht
      change ms = _ at o1
      rw [o1] at m
      have hj : j = 0 := by
        have := (List.getElem?_eq_some_iff.1 m).1
        simp only [List.length_cons, List.length_nil] at this
        omega
      subst hj
      rw [← Option.some.inj m, ← Option.some.inj (o3.symm.trans o),
        C35_round_trip 0 mintRec [] bob memo101 rfl memo101_eq] at op
      cases op
      rcases hp with rfl | rfl
      · rw [show uid = 3 from Fin.ext p]
        simp [mine101]
      · rw [show uid = 6 from Fin.ext p]
        simp [mine101]
    | change wt a o p =>
      rename_i t ms pos chg uid
      have hc : chg = richFee2.fee_chg_ro := by
        simpa [hh, seen101] using wt
      have hp : pos = 2 ∨ pos = 5 := (hat a).imp (·.2) (·.2)
      rw [hc]
      rcases hp with rfl | rfl
      · rw [show uid = 2 from Fin.ext p]
        simp [mine101]
      · rw [show uid = 5 from Fin.ext p]
        simp [mine101]
  have fresh : ∀ x, Received bob h' x → 2 ≤ x.2.val → ∀ t, t = one ∨ t = other → ownNullifier bob x ∉ t.1.nullifiers := by
    intro x hx h2 t ht hn
    have hm : x ∈ mine101.tail := by
      rcases List.mem_cons.1 (hr x hx) with rfl | h
      · exact absurd h2 (by decide)
      · exact h
    obtain ⟨u1, u2⟩ := of_decide_eq_true (List.all_eq_true.1 unspent101 x hm)
    rcases (out t ht).2.2.2 _ hn with e | e
    · exact u1 e
    · exact u2 e
  refine ⟨⟨fun x y hx hy hn => List.inj_on_of_nodup_map nullifiers101 (hr x hx) (hr y hy) hn, fun x hx t m pos a hp => ?_⟩, ?_,
    fun x hx hp t ht => fresh x hx hp t (by simpa using ht)⟩
  · refine fresh x hx ?_ (t, m) ((hat a).imp (·.1) (·.1))
    rcases hat a with ⟨-, rfl⟩ | ⟨-, rfl⟩ <;> omega
  · have ne : richFee1.fee_chg_ro.commitment ≠ richFee2.fee_chg_ro.commitment := by decide +kernel
    rcases which with ⟨rfl, rfl⟩ | ⟨rfl, rfl⟩
    · simp only [List.map_cons, List.map_nil, outputs101.1, outputs101.2]
      simpa using ne
    · simp only [List.map_cons, List.map_nil, outputs101.1, outputs101.2]
      simpa using ne.symm

/-- what the two mints bring Bob -/
theorem brings101 : [tx101, own101].flatMap (brings bob wallet101.changes) = [mintRec, richFee2.fee_chg_ro, mintRec] := by
  have opens : tells bob (mintRec.commitment, memo101) = some mintRec :=
    tells_some.2 ⟨rfl, C35_round_trip 0 mintRec [] bob memo101 rfl memo101_eq⟩
  have no : [richFee2.fee_chg_ro].find? (fun c => c.commitment = richFee1.fee_chg_ro.commitment) = none := by decide +kernel
  have yes : [richFee2.fee_chg_ro].find? (fun c => c.commitment = richFee2.fee_chg_ro.commitment) =
    some richFee2.fee_chg_ro := by decide +kernel
  have rest : ([mintRec.commitment].zip [memo101]).filterMap (tells bob) = [mintRec] := by
    rw [List.zip_cons_cons, List.zip_nil_left, List.filterMap_cons_some opens, List.filterMap_nil]
  have one : brings bob wallet101.changes tx101 = [mintRec] := by
    unfold brings givesBack
    rw [outputs101.1]
    change ([richFee2.fee_chg_ro].find? (fun c => c.commitment = richFee1.fee_chg_ro.commitment)).toList ++
      ([mintRec.commitment].zip [memo101]).filterMap (tells bob) = _
    rw [no, rest]
    rfl
  have other : brings bob wallet101.changes own101 = [richFee2.fee_chg_ro, mintRec] := by
    unfold brings givesBack
    rw [outputs101.2]
    change ([richFee2.fee_chg_ro].find? (fun c => c.commitment = richFee2.fee_chg_ro.commitment)).toList ++
      ([mintRec.commitment].zip [memo101]).filterMap (tells bob) = _
    rw [yes, rest]
    rfl
  rw [List.flatMap_cons, List.flatMap_cons, List.flatMap_nil, one, other]
  rfl

/-- The mints can come in either order. -/
theorem runs101 : ∃ blind blind' who who' time time' s12 w12 s21 w21,
    InBlocks 2 .debug bob seen101 led101 wallet101 [[tx101], [own101]]
      (seen101 ++ [.block [tx101] blind who time] ++ [.block [own101] blind' who' time']) s12 w12 ∧
    InBlocks 2 .debug bob seen101 led101 wallet101 [[own101], [tx101]]
      (seen101 ++ [.block [own101] blind' who' time'] ++ [.block [tx101] blind who time]) s21 w21 := by
  obtain ⟨s1, h1⟩ : ∃ s1, led101.insertBlock 2 ⟨[tx101.1], (1 : ZMod p), bob.pubKey⟩ = .ok s1 :=
    insertBlock_iff.2 ⟨⟨by decide, by decide⟩, by
      show richNote1.aux_info.fee.val + 0 < _
      have := richNote1.aux_info.fee.isLt
      omega⟩
  obtain ⟨fee, -, l1, -⟩ := LedgerState.insertBlock_ok h1
  have len : s1.leaves.length = 5 := by rw [l1]; rfl
  obtain ⟨s12, h12⟩ : ∃ s12, s1.insertBlock 2 ⟨[own101.1], (2 : ZMod p), alice.pubKey⟩ = .ok s12 :=
    insertBlock_iff.2 ⟨⟨(by rw [len]; decide), (by rw [len]; decide)⟩, by
      show richNote2.aux_info.fee.val + 0 < _
      have := richNote2.aux_info.fee.isLt
      omega⟩
  obtain ⟨w12, s21, w21, f1, f2⟩ := C101_swap batch world101 (one := [tx101]) (other := [own101]) (by simp) (by simp)
    (valid101 5).1 (valid101 6).2 (by
      intro t ht u hu x hx hx'
      obtain rfl := List.mem_singleton.1 ht
      obtain rfl := List.mem_singleton.1 hu
      obtain rfl := List.mem_singleton.1 (show x ∈ [richNote1.input_nullifier] from hx)
      exact rich_nullifiers (List.mem_singleton.1 (show _ ∈ [richNote2.input_nullifier] from hx')))
    h1 h12 (by
      intro t ht
      rcases List.mem_cons.1 ht with rfl | ht
      · rfl
      · obtain rfl := List.mem_singleton.1 ht
        rfl)
  exact ⟨_, _, _, _, _, _, _, _, _, _, f1, f2⟩

/-- Bob then has 2000 of the asset, and the same records in either order. -/
example : ∃ h12 s12 w12 h21 s21 w21, InBlocks 2 .debug bob seen101 led101 wallet101 [[tx101], [own101]] h12 s12 w12 ∧
    InBlocks 2 .debug bob seen101 led101 wallet101 [[own101], [tx101]] h21 s21 w21 ∧
    ∀ code coins coins', Coins w12 code coins → Coins w21 code coins' →
      (coins.map (·.1)).Perm (coins'.map (·.1)) ∧ (code = asset.code → total (coins'.map (·.1)) = 2000) := by
  obtain ⟨blind, blind', who, who', time, time', s12, w12, s21, w21, f1, f2⟩ := runs101
  refine ⟨_, s12, w12, _, s21, w21, f1, f2, fun code coins coins' hc hc' => ?_⟩
  obtain ⟨a1, i1⟩ := received101 (.inl ⟨rfl, rfl⟩) (blind := blind) (blind' := blind') (who := who) (who' := who')
    (time := time) (time' := time')
  obtain ⟨a2, i2⟩ := received101 (.inr ⟨rfl, rfl⟩) (blind := blind') (blind' := blind) (who := who') (who' := who)
    (time := time') (time' := time)
  have unique : ∀ c ∈ wallet101.changes, ∀ c' ∈ wallet101.changes, c.commitment = c'.commitment → c = c' := by
    intro c hc c' hc' _
    rw [List.mem_singleton.1 hc, List.mem_singleton.1 hc']
  obtain ⟨perm, same⟩ := C101_order world101 f1 f2 (List.Perm.swap _ _ _) a1 a2 unique i1 i2 hc hc'
  refine ⟨perm, ?_⟩
  rintro rfl
  have none : Coins wallet101 asset.code [] := by
    refine ⟨List.nodup_nil, fun x => ⟨fun h => (nomatch h), fun ⟨h1, h2⟩ => ?_⟩⟩
    rw [show wallet101.Holds x ↔ ((Wallet.new bob).addRecordOpening rich2 1).Holds x from Iff.rfl, Wallet.holds_add] at h1
    rcases h1 with rfl | ⟨e, he, -⟩
    · exact absurd h2 (show nativeCode ≠ asset.code by decide +kernel)
    · cases he
  obtain ⟨kept, -, hk, p⟩ := C101_account world101 f1 a1 unique i1 none hc
  obtain rfl : kept = [] := List.eq_nil_iff_forall_not_mem.2 fun x hx => (nomatch ((hk x).1 hx).1)
  rw [← same, show total (coins.map (·.1)) = _ from (p.map _).sum_eq]
  change total ([] ++ ([tx101, own101].flatMap (brings bob wallet101.changes)).filter _) = _
  rw [brings101]
  decide +kernel

end Cap.Examples
