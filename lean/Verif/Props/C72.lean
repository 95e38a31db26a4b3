/-
C72 A pending transaction stays acceptable until it expires or one of its inputs is spent

status: proved
note: For the reference ledger and validator, for arbitrary notes (also notes not made by the library), every intermediate history and every time; under the idealisation of batch verification (`SnarkBatch`).
-/
import Verif.Props.C51
import Verif.Props.C52

namespace Cap
open Spec

variable [E : CapEnv] [S : CapExt]

theorem checked_time {time time' : U64} {t : TransactionNote} {root : F} {vk : TransactionVerifyingKey}
    (h : CheckedInBatch time t root vk) :
    CheckedInBatch time' t root vk ↔ ∀ n, t = .transfer n → time' ≤ n.aux_info.valid_until := by
  unfold CheckedInBatch at h ⊢
  cases t with
  | transfer n =>
    simp only [TransactionNote.publicScalars, bind_ok_iff, TransferNote.checkInstance_ok, TransactionNote.transfer.injEq,
      forall_eq'] at h ⊢
    obtain ⟨x, ⟨a, ⟨h1, -, h2⟩, h3⟩, h4⟩ := h
    constructor
    · rintro ⟨_, ⟨_, ⟨-, h', -⟩, -⟩, -⟩; exact h'
    · intro h'; exact ⟨x, ⟨a, ⟨h1, h', h2⟩, h3⟩, h4⟩
  | mint n =>
    refine ⟨fun _ n hn => (by cases hn), fun _ => h⟩
  | freeze n =>
    refine ⟨fun _ n hn => (by cases hn), fun _ => h⟩

theorem runFrom_grows {d : Fin 256} {es : List Event} {s s' : LedgerState} (later : runFrom d s es = .ok s') :
    (∀ x ∈ s.roots, x ∈ s'.roots) ∧
    ∀ x, x ∈ s'.nullifiers ↔ x ∈ s.nullifiers ∨ ∃ e ∈ es, ∃ u ∈ e.txns, x ∈ u.note.nullifiers := by
  induction es generalizing s with
  | nil => cases later; simp
  | cons e es ih =>
    rw [runFrom, bind_ok_iff] at later
    obtain ⟨s1, h1, h2⟩ := later
    obtain ⟨ih1, ih2⟩ := ih h2
    cases e with
    | grant ro =>
      obtain ⟨-, g2, g3, -⟩ := LedgerState.grant_ok h1
      refine ⟨fun x hx => ih1 x (by rw [g2]; exact List.mem_cons_of_mem _ hx), fun x => ?_⟩
      rw [ih2, g3]
      simp [Event.txns]
    | block txns blind who time =>
      rw [Event.apply, bind_ok_iff] at h1
      obtain ⟨_, -, h1⟩ := h1
      obtain ⟨-, -, -, g2, g3, -⟩ := LedgerState.insertBlock_ok h1
      refine ⟨fun x hx => ih1 x (by rw [g2]; exact List.mem_cons_of_mem _ hx), fun x => ?_⟩
      rw [ih2, g3]
      simp only [List.mem_flatMap, List.mem_map, List.mem_cons, exists_eq_or_imp, Event.txns]
      constructor
      · rintro ((⟨_, ⟨t, ht, rfl⟩, hx⟩ | h) | h)
        · exact .inr (.inl ⟨t, ht, hx⟩)
        · exact .inl h
        · exact .inr (.inr h)
      · rintro (h | ⟨t, ht, hx⟩ | h)
        · exact .inl (.inr h)
        · exact .inl (.inl ⟨_, ⟨t, ht, rfl⟩, hx⟩)
        · exact .inr h

/-- **Pending transactions.**  Transactions that could be accepted together now can be accepted together after any further
history, at any time, exactly if none of the transfers among them has expired and none of their inputs was spent meanwhile. -/
theorem C72_stays (batch : SnarkBatch) {d : Fin 256} {s s' : LedgerState} {txns : List TransactionNote} {time : U64}
    {es : List Event} (ne : txns ≠ []) (now : validateTxnsBatch d s txns time = .ok ())
    (later : runFrom d s es = .ok s') (time' : U64) :
    validateTxnsBatch d s' txns time' = .ok () ↔
      (∀ n, .transfer n ∈ txns → time' ≤ n.aux_info.valid_until) ∧
      ∀ t ∈ txns, ∀ x ∈ t.nullifiers, ∀ e ∈ es, ∀ u ∈ e.txns, x ∉ u.note.nullifiers := by
  obtain ⟨h1, h2, h3, h4⟩ := (C51_any batch ne).1 now
  obtain ⟨g1, g2⟩ := runFrom_grows later
  rw [C51_any batch ne]
  constructor
  · rintro ⟨-, -, k3, k4⟩
    refine ⟨fun n hn => ?_, fun t ht x hx e he u hu hxu => ?_⟩
    · obtain ⟨k, hk, hc⟩ := h4 _ hn
      obtain ⟨k', hk', hc'⟩ := k4 _ hn
      rw [hk] at hk'
      cases hk'
      exact (checked_time hc).1 hc' n rfl
    · exact k3 t ht x hx ((g2 x).2 (.inr ⟨e, he, u, hu, hxu⟩))
  · rintro ⟨k1, k2⟩
    refine ⟨fun t ht => g1 _ (h1 t ht), h2, fun t ht x hx hn => ?_, fun t ht => ?_⟩
    · rcases (g2 x).1 hn with h | ⟨e, he, u, hu, hxu⟩
      · exact h3 t ht x hx h
      · exact k2 t ht x hx e he u hu hxu
    · obtain ⟨k, hk, hc⟩ := h4 t ht
      exact ⟨k, hk, (checked_time hc).2 (fun n hn => k1 n (hn ▸ ht))⟩

/-- **Spent is spent.**  Once a transaction with some input is in the ledger, no transactions with that input are accepted
after any further history, at any time. -/
theorem C72_spent (batch : SnarkBatch) {d : Fin 256} {s s' : LedgerState} {es : List Event} (later : runFrom d s es = .ok s')
    {e : Event} (he : e ∈ es) {u : Txn} (hu : u ∈ e.txns) {txns : List TransactionNote} {t : TransactionNote} (ht : t ∈ txns)
    {x : F} (hx : x ∈ u.note.nullifiers) (hx' : x ∈ t.nullifiers) (time : U64) :
    validateTxnsBatch d s' txns time ≠ .ok () := by
  intro h
  have ne : txns ≠ [] := List.ne_nil_of_mem ht
  exact ((C51_any batch ne).1 h).2.2.1 t ht x hx' (((runFrom_grows later).2 x).2 (.inr ⟨e, he, u, hu, hx⟩))

/-- **Putting blocks together.**  Two lists of transactions can be accepted as one block exactly if each can be accepted and
they have no input in common. -/
theorem C72_merge (batch : SnarkBatch) {d : Fin 256} {s : LedgerState} {a b : List TransactionNote} {time : U64}
    (ha : a ≠ []) (hb : b ≠ []) :
    validateTxnsBatch d s (a ++ b) time = .ok () ↔
      validateTxnsBatch d s a time = .ok () ∧ validateTxnsBatch d s b time = .ok () ∧
      ∀ t ∈ a, ∀ u ∈ b, ∀ x ∈ t.nullifiers, x ∉ u.nullifiers := by
  rw [C51_any batch ha, C51_any batch hb, C51_any batch (by simp [ha])]
  simp only [List.mem_append, or_imp, forall_and, List.flatMap_append, List.nodup_append, List.mem_flatMap]
  constructor
  · rintro ⟨⟨h1, h2⟩, ⟨h3, h4, h5⟩, ⟨h6, h7⟩, h8, h9⟩
    exact ⟨⟨h1, h3, h6, h8⟩, ⟨h2, h4, h7, h9⟩, fun t ht u hu x hx hx' => h5 x ⟨t, ht, hx⟩ x ⟨u, hu, hx'⟩ rfl⟩
  · rintro ⟨⟨h1, h3, h6, h8⟩, ⟨h2, h4, h7, h9⟩, h⟩
    refine ⟨⟨h1, h2⟩, ⟨h3, h4, ?_⟩, ⟨h6, h7⟩, h8, h9⟩
    rintro x ⟨t, ht, hx⟩ y ⟨u, hu, hy⟩ rfl
    exact h t ht u hu x hx hy

/-- **The order inside a block does not matter** for acceptance. -/
theorem C72_order (batch : SnarkBatch) {d : Fin 256} {s : LedgerState} {a b : List TransactionNote} {time : U64}
    (ne : a ≠ []) (perm : a.Perm b) :
    validateTxnsBatch d s a time = .ok () ↔ validateTxnsBatch d s b time = .ok () := by
  have hb : b ≠ [] := fun h => ne (by rw [h] at perm; exact List.perm_nil.1 perm)
  rw [C51_any batch ne, C51_any batch hb]
  rw [(perm.flatMap_right TransactionNote.nullifiers).nodup_iff]
  simp only [perm.mem_iff]

theorem insertBlock_iff {d : ℕ} {b : MockBlock} {s : LedgerState} :
    (∃ s', s.insertBlock d b = .ok s') ↔
      Room d s ((b.txns.map TransactionNote.outputLen).sum + 1) ∧ (b.txns.map (fun t => t.fee.val)).sum < 2 ^ 128 := by
  by_cases within : Room d s 0
  · rw [← (C52_partial (b := b) within).1]
    constructor
    · rintro ⟨s', h⟩
      rw [C52_same] at h
      rw [h]
    · intro h
      exact ⟨_, C52_same.2 (Prod.ext rfl h)⟩
  · constructor
    · rintro ⟨s', h⟩
      obtain ⟨fee, -, e1, -, -, e4, e5⟩ := LedgerState.insertBlock_ok h
      refine absurd ?_ within
      have : s.leaves.length ≤ s'.leaves.length := by rw [e1]; simp
      exact ⟨by omega, by omega⟩
    · rintro ⟨h, -⟩
      exact absurd ⟨by have := h.1; omega, by have := h.2; omega⟩ within

/-- **Blocks without a common input can come in either order.**  If two blocks can be accepted now, have no input in common
and can be inserted one after the other, then each is accepted after the other, at its time; they can be inserted the other way
round; and in both cases the ledger holds the same records (in another order) and the same inputs are spent. -/
theorem C72_commute (batch : SnarkBatch) {d : Fin 256} {s s1 s12 : LedgerState} {a b : MockBlock} {ta tb : U64}
    (nea : a.txns ≠ []) (neb : b.txns ≠ [])
    (oka : validateTxnsBatch d s a.txns ta = .ok ()) (okb : validateTxnsBatch d s b.txns tb = .ok ())
    (apart : ∀ t ∈ a.txns, ∀ u ∈ b.txns, ∀ x ∈ t.nullifiers, x ∉ u.nullifiers)
    (ina : s.insertBlock d.val a = .ok s1) (inb : s1.insertBlock d.val b = .ok s12) :
    validateTxnsBatch d s1 b.txns tb = .ok () ∧
    ∃ s2 s21, s.insertBlock d.val b = .ok s2 ∧ validateTxnsBatch d s2 a.txns ta = .ok () ∧
      s2.insertBlock d.val a = .ok s21 ∧ s12.leaves.Perm s21.leaves ∧ ∀ x, x ∈ s12.nullifiers ↔ x ∈ s21.nullifiers := by
  have step : ∀ (a : MockBlock) (ta : U64) (s1 : LedgerState), validateTxnsBatch d s a.txns ta = .ok () →
      s.insertBlock d.val a = .ok s1 →
      runFrom d s [.block (a.txns.map (fun t => ⟨t, [], []⟩)) a.fee_blind a.proposer_pub_key ta] = .ok s1 := by
    intro a ta s1 h1 h2
    have hm : (a.txns.map (fun t => (⟨t, [], []⟩ : Txn))).map (·.note) = a.txns := by
      rw [List.map_map]; exact List.map_id _
    simp only [runFrom, Event.apply, hm, h1, bind, Except.bind]
    rw [h2]
  obtain ⟨ra, fa⟩ := insertBlock_iff.1 ⟨_, ina⟩
  obtain ⟨rb, fb⟩ := insertBlock_iff.1 ⟨_, inb⟩
  obtain ⟨feea, ca, la, -, na, -⟩ := LedgerState.insertBlock_ok ina
  obtain ⟨feeb, cb, lb, -, nb, -⟩ := LedgerState.insertBlock_ok inb
  have hlen : ∀ l : List TransactionNote, (l.flatMap TransactionNote.outputCommitments).length =
      (l.map TransactionNote.outputLen).sum := by
    intro l
    rw [List.length_flatMap]
    congr 1
    refine List.map_congr_left (fun t _ => ?_)
    cases t <;> rfl
  have la' : s1.leaves.length = s.leaves.length + (a.txns.map TransactionNote.outputLen).sum + 1 := by
    rw [la]; simp only [List.length_append, hlen, List.length_singleton]
  obtain ⟨s2, in2⟩ : ∃ s2, s.insertBlock d.val b = .ok s2 :=
    insertBlock_iff.2 ⟨⟨by have := rb.1; omega, by have := rb.2; omega⟩, fb⟩
  obtain ⟨feeb', cb', l2, -, n2, -⟩ := LedgerState.insertBlock_ok in2
  obtain rfl : feeb = feeb' := by rw [cb] at cb'; exact Except.ok.inj cb'
  have l2' : s2.leaves.length = s.leaves.length + (b.txns.map TransactionNote.outputLen).sum + 1 := by
    rw [l2]; simp only [List.length_append, hlen, List.length_singleton]
  obtain ⟨s21, in21⟩ : ∃ s21, s2.insertBlock d.val a = .ok s21 :=
    insertBlock_iff.2 ⟨⟨by have := rb.1; omega, by have := rb.2; omega⟩, fa⟩
  obtain ⟨feea', ca', l21, -, n21, -⟩ := LedgerState.insertBlock_ok in21
  obtain rfl : feea = feea' := by rw [ca] at ca'; exact Except.ok.inj ca'
  refine ⟨?_, s2, s21, in2, ?_, in21, ?_, fun x => ?_⟩
  · rw [C72_stays batch neb okb (step a ta s1 oka ina)]
    obtain ⟨-, -, -, h4⟩ := (C51_any batch neb).1 okb
    refine ⟨fun n hn => ?_, ?_⟩
    · obtain ⟨k, -, hc⟩ := h4 _ hn
      exact (checked_time hc).1 hc n rfl
    · intro t ht x hx e he u hu hxu
      rw [List.mem_singleton] at he
      subst he
      obtain ⟨v, hv, rfl⟩ := List.mem_map.1 hu
      exact apart v hv t ht x hxu hx
  · rw [C72_stays batch nea oka (step b tb s2 okb in2)]
    obtain ⟨-, -, -, h4⟩ := (C51_any batch nea).1 oka
    refine ⟨fun n hn => ?_, ?_⟩
    · obtain ⟨k, -, hc⟩ := h4 _ hn
      exact (checked_time hc).1 hc n rfl
    · intro t ht x hx e he u hu hxu
      rw [List.mem_singleton] at he
      subst he
      obtain ⟨v, hv, rfl⟩ := List.mem_map.1 hu
      exact apart t ht v hv x hx hxu
  · rw [lb, la, l21, l2]
    simp only [List.append_assoc]
    refine List.Perm.append_left _ ?_
    rw [← List.append_assoc, ← List.append_assoc (b.txns.flatMap _)]
    exact List.perm_append_comm
  · rw [nb, na, n21, n2]
    tauto

end Cap

namespace Cap.Examples
open Toy Spec

/-- after another grant the payment of C44 can still be accepted until its time is over, and not later -/
example : ∃ s', runFrom 2 led0 [.grant assetRec] = .ok s' ∧ validateTxnsBatch 2 s' [txn1.note] 800 = .ok () ∧
    validateTxnsBatch 2 s' [txn1.note] 801 ≠ .ok () := by
  have hu : note1.aux_info.valid_until = 800 := (C17_generate keys1 complete note1_eq).1
  have later : ∃ s', runFrom 2 led0 [.grant assetRec] = .ok s' :=
    ⟨_, bind_ok_iff.2 ⟨_, bind_ok_iff.2 ⟨_, room (by decide), rfl⟩, rfl⟩⟩
  obtain ⟨s', hs⟩ := later
  refine ⟨s', hs, ?_, ?_⟩
  · rw [C72_stays batch (by simp) valid1 hs]
    refine ⟨fun n hn => ?_, fun t ht x hx e he u hu => ?_⟩
    · obtain rfl : n = note1 := by
        have := List.mem_singleton.1 hn
        exact TransactionNote.transfer.inj this
      rw [hu]
    · obtain rfl := List.mem_singleton.1 he
      cases hu
  · rw [Ne, C72_stays batch (by simp) valid1 hs]
    rintro ⟨h, -⟩
    have := h note1 List.mem_cons_self
    rw [hu] at this
    revert this
    decide

/-- after the payment is in the ledger, it is not accepted again -/
example : validateTxnsBatch 2 led1 [txn1.note] 700 ≠ .ok () := by
  have later : runFrom 2 led0 [.block [txn1] 47 bob.pubKey 700] = .ok led1 :=
    bind_ok_iff.2 ⟨_, bind_ok_iff.2 ⟨(), valid1, led1_ok⟩, rfl⟩
  have hx : userNullifier feeRec ⟨treePath 2 tree1 0, treeRoot 2 tree1, 0⟩ alice ∈ txn1.note.nullifiers := by
    show _ ∈ note1.inputs_nullifiers
    rw [note1_nullifiers]
    exact List.mem_cons_self
  exact C72_spent batch later List.mem_cons_self (u := txn1) List.mem_cons_self (t := txn1.note) List.mem_cons_self hx hx 700

theorem rich_valid1 : validateTxnsBatch 2 richLedger [richTxn1.note] 5 = .ok () := by
  obtain ⟨sk1, e1⟩ := rich1_eq
  obtain ⟨a1, -, -, -, a5, a6, -⟩ := C18_fields e1
  refine validate_made complete batch (ts := [richTxn1]) (by simp) ?_ ?_ ?_ ?_ ?_
  · intro t ht; obtain rfl := List.mem_singleton.1 ht; exact .mint keys2 e1
  · intro t ht
    obtain rfl := List.mem_singleton.1 ht
    show richNote1.mint_amount.val < _
    rw [a1]; decide +kernel
  · intro t ht
    obtain rfl := List.mem_singleton.1 ht
    show richNote1.aux_info.merkle_root ∈ _
    rw [a6]; exact List.mem_cons_self
  · show [richNote1.input_nullifier].Nodup
    simp
  · intro t _ x _
    simp [richLedger]

theorem rich_valid2 : validateTxnsBatch 2 richLedger [richTxn2.note] 6 = .ok () := by
  obtain ⟨sk1, e1⟩ := rich2_eq
  obtain ⟨a1, -, -, -, a5, a6, -⟩ := C18_fields e1
  refine validate_made complete batch (ts := [richTxn2]) (by simp) ?_ ?_ ?_ ?_ ?_
  · intro t ht; obtain rfl := List.mem_singleton.1 ht; exact .mint keys2 e1
  · intro t ht
    obtain rfl := List.mem_singleton.1 ht
    show richNote2.mint_amount.val < _
    rw [a1]; decide +kernel
  · intro t ht
    obtain rfl := List.mem_singleton.1 ht
    show richNote2.aux_info.merkle_root ∈ _
    rw [a6]; exact List.mem_cons_self
  · show [richNote2.input_nullifier].Nodup
    simp
  · intro t _ x _
    simp [richLedger]

/-- the two mints of C52, in blocks of their own, meet the hypotheses of `C72_commute` -/
example : ∃ s1 s12, richLedger.insertBlock 2 ⟨[richTxn1.note], (1 : ZMod p), bob.pubKey⟩ = .ok s1 ∧
    s1.insertBlock 2 ⟨[richTxn2.note], (2 : ZMod p), alice.pubKey⟩ = .ok s12 ∧
    (∀ t ∈ [richTxn1.note], ∀ u ∈ [richTxn2.note], ∀ x ∈ t.nullifiers, x ∉ u.nullifiers) ∧
    validateTxnsBatch 2 s1 [richTxn2.note] 6 = .ok () := by
  have apart : ∀ t ∈ [richTxn1.note], ∀ u ∈ [richTxn2.note], ∀ x ∈ t.nullifiers, x ∉ u.nullifiers := by
    intro t ht u hu x hx hx'
    obtain rfl := List.mem_singleton.1 ht
    obtain rfl := List.mem_singleton.1 hu
    obtain rfl := List.mem_singleton.1 (show x ∈ [richNote1.input_nullifier] from hx)
    exact rich_nullifiers (List.mem_singleton.1 (show _ ∈ [richNote2.input_nullifier] from hx'))
  obtain ⟨s1, h1⟩ : ∃ s1, richLedger.insertBlock 2 ⟨[richTxn1.note], (1 : ZMod p), bob.pubKey⟩ = .ok s1 :=
    insertBlock_iff.2 ⟨⟨by decide, by decide⟩, by
      show richNote1.aux_info.fee.val + 0 < _
      have := richNote1.aux_info.fee.isLt
      omega⟩
  obtain ⟨fee, -, l1, -⟩ := LedgerState.insertBlock_ok h1
  have len : s1.leaves.length = 5 := by rw [l1]; rfl
  obtain ⟨s12, h12⟩ : ∃ s12, s1.insertBlock 2 ⟨[richTxn2.note], (2 : ZMod p), alice.pubKey⟩ = .ok s12 :=
    insertBlock_iff.2 ⟨⟨(by rw [len]; decide), (by rw [len]; decide)⟩, by
      show richNote2.aux_info.fee.val + 0 < _
      have := richNote2.aux_info.fee.isLt
      omega⟩
  exact ⟨s1, s12, h1, h12, apart,
    (C72_commute batch (d := 2) (a := ⟨[richTxn1.note], (1 : ZMod p), bob.pubKey⟩)
      (b := ⟨[richTxn2.note], (2 : ZMod p), alice.pubKey⟩) (ta := 5) (tb := 6) (by simp) (by simp) rich_valid1 rich_valid2 apart h1 h12).1⟩

/-- and they can be accepted together, in either order -/
example : validateTxnsBatch 2 richLedger [richTxn2.note, richTxn1.note] 6 = .ok () := by
  have v1 : validateTxnsBatch 2 richLedger [richTxn1.note] 6 = .ok () := by
    have := C72_stays batch (s' := richLedger) (es := []) (by simp) rich_valid1 rfl 6
    exact this.2 ⟨fun n hn => absurd (List.mem_singleton.1 hn) (by intro h; cases h), by simp⟩
  refine (C72_order batch (by simp) (List.Perm.swap _ _ [])).1 ((C72_merge batch (a := [richTxn1.note])
    (b := [richTxn2.note]) (by simp) (by simp)).2 ⟨v1, rich_valid2, ?_⟩)
  intro t ht u hu x hx hx'
  obtain rfl := List.mem_singleton.1 ht
  obtain rfl := List.mem_singleton.1 hu
  obtain rfl := List.mem_singleton.1 (show x ∈ [richNote1.input_nullifier] from hx)
  exact rich_nullifiers (List.mem_singleton.1 (show _ ∈ [richNote2.input_nullifier] from hx'))

end Cap.Examples
