/-
C74: nobody else can block a pending transaction.

status: proved
note: Any ledger state, any further history in which anybody submits any notes. C74_blocked: if a pending transaction that was acceptable is refused later, then it has expired, or one of the very records it spends has been taken meanwhile, at the same position, with a secret key of its owner or of its freezer, or two named inputs of a hash function collide. C74_idle: for transactions made by the library: if the owners and freezers of the records it spends do nothing, it stays acceptable until it expires. C74_included: then a block with it goes into the ledger as long as there is room. C74_accepted: the same for histories and pending notes of which only acceptance is known.
-/
import Verif.SpecHolder
import Verif.Props.C57
import Verif.Props.C72

namespace Cap

open Spec

variable [E : CapEnv] [S : CapExt]

/-- two spends with the same nullifier are of the same record at the same position, or hashes collide -/
theorem same_nullifier {x y : Spend} (h : x.nullifier = y.nullifier) :
    (y.acc.uid = x.acc.uid ∧ (x.ro.scalars, x.ro.blind) = (y.ro.scalars, y.ro.blind)) ∨ Clash x y := by
  by_cases hc : (spendKey x, [x.acc.uid, x.ro.commitment]) = (spendKey y, [y.acc.uid, y.ro.commitment])
  · simp only [Prod.mk.injEq, List.cons.injEq, and_true] at hc
    by_cases hr : (x.ro.scalars, x.ro.blind) = (y.ro.scalars, y.ro.blind)
    · exact .inl ⟨hc.2.1.symm, hr⟩
    · exact .inr (.inr ⟨hr, hc.2.2⟩)
  · exact .inr (.inl ⟨hc, h⟩)

/-- whoever spends a record with these committed values holds one of its keys -/
theorem holdsKey {d : ℕ} {o : Opening} (sat : o.Satisfied d) {y : Spend} (hy : y ∈ o.spends) {ro : RecordOpening}
    (reads : Reads ro y.ro) : HoldsKey y ro := by
  obtain ⟨-, h2, h3, -, -, h6, -⟩ := reads_iff.1 reads
  have hv := sat.nullifiers.2 y hy
  have hs := hv.spend.2
  cases hw : y.who with
  | user => rw [hw] at hs; exact .inl ⟨hw, xy_inj (hs.trans h3.symm)⟩
  | freezer =>
    rw [hw] at hs
    refine .inr ⟨hw, xy_inj (hs.trans h6.symm), fun hz => ?_⟩
    by_contra hc
    refine hv.freezer hw (by rwa [← h2]) ?_
    rw [← h6, hz]
    exact xy_eq_neutral.2 rfl

/-- **Who can block a pending transaction.** -/
theorem C74_blocked (batch : SnarkBatch) {d : Fin 256} {s s' : LedgerState} {pending : List Opening} (ne : pending ≠ [])
    (sat : ∀ o ∈ pending, o.Satisfied d) {time : U64}
    (now : validateTxnsBatch d s (pending.map Opening.note) time = .ok ()) {later : List Step}
    (run : runFrom d s (later.map Step.event) = .ok s') (later_sat : AllSatisfied d later) {time' : U64}
    (refused : validateTxnsBatch d s' (pending.map Opening.note) time' ≠ .ok ()) :
    (∃ n, .transfer n ∈ pending.map Opening.note ∧ n.aux_info.valid_until < time') ∨
      ∃ o ∈ pending, ∃ x ∈ o.spends, ∃ y ∈ openedSpends later,
        (y.2.acc.uid = x.acc.uid ∧ ∀ ro, Reads ro x.ro → Reads ro y.2.ro ∧ HoldsKey y.2 ro) ∨ Clash x y.2 := by
  have h := mt (C72_stays batch (by simpa using ne) now run time').2 refused
  rw [not_and_or] at h
  rcases h with h | h
  · push Not at h
    exact .inl h
  · right
    push Not at h
    obtain ⟨t, ht, nf, hnf, e, he, u, hu, hx⟩ := h
    obtain ⟨o, ho, rfl⟩ := List.mem_map.1 ht
    obtain ⟨st, hst, rfl⟩ := List.mem_map.1 he
    have hu' : ∃ o' ∈ st.txns, u.note = o'.note := by
      cases st with
      | grant => cases hu
      | block os b w t =>
        obtain ⟨o', ho', rfl⟩ := List.mem_map.1 hu
        exact ⟨o', ho', rfl⟩
    obtain ⟨o', ho', hn⟩ := hu'
    have so := sat o ho
    have so' := later_sat st hst o' ho'
    rw [so.nullifiers.1] at hnf
    rw [hn, so'.nullifiers.1] at hx
    obtain ⟨x, hxo, rfl⟩ := List.mem_map.1 hnf
    obtain ⟨y, hyo, hxy⟩ := List.mem_map.1 hx
    refine ⟨o, ho, x, hxo, (o', y), ?_, ?_⟩
    · simp only [openedSpends, List.mem_flatMap, List.mem_map]
      exact ⟨st, hst, o', ho', y, hyo, rfl⟩
    · rcases same_nullifier hxy.symm with ⟨h1, h2⟩ | h
      · refine .inl ⟨h1, fun ro hr => ?_⟩
        have : Reads ro y.ro := ⟨hr.1.trans (Prod.mk.inj h2).1, hr.2.trans (Prod.mk.inj h2).2⟩
        exact ⟨this, holdsKey so' hyo this⟩
      · exact .inr h

/-- The openings of transactions made by the library: the same notes, and the records and paths they were made from. -/
theorem made_opened {d : Fin 256} {ts : List Txn} (made : ∀ t ∈ ts, Made d t)
    (mints : ∀ t ∈ ts, ∀ n, t.note = .mint n → n.mint_amount.val < 2 ^ 127) :
    ∃ os : List Opening, os.map Opening.note = ts.map (·.note) ∧ (∀ o ∈ os, o.Satisfied d.val) ∧
      os.map (fun o => o.spends.map (fun x => (x.ro, x.acc))) =
        ts.map (fun t => t.spends.map (fun x => (x.1.toV, x.2.toV))) := by
  induction ts with
  | nil => exact ⟨[], rfl, by simp, rfl⟩
  | cons t ts ih =>
    obtain ⟨o, ho⟩ := (made t List.mem_cons_self).opens (mints t List.mem_cons_self)
    obtain ⟨os, h1, h2, h3⟩ := ih (fun t' h' => made t' (List.mem_cons_of_mem _ h'))
      (fun t' h' => mints t' (List.mem_cons_of_mem _ h'))
    refine ⟨o :: os, ?_, ?_, ?_⟩
    · rw [List.map_cons, List.map_cons, h1, ho.note]
    · rintro o' ho'
      rcases List.mem_cons.1 ho' with rfl | ho'
      · exact ho.satisfied
      · exact h2 o' ho'
    · rw [List.map_cons, List.map_cons, h3, ho.spends]

/-- **If the holders of the keys do nothing.**  Transactions made by the library stay acceptable exactly until they expire,
if nobody with a key of an input spends that input, and the hashes of an input and of a later spend do not collide. -/
theorem C74_idle (batch : SnarkBatch) {d : Fin 256} {s s' : LedgerState} {ts : List Txn} (ne : ts ≠ [])
    (made : ∀ t ∈ ts, Made d t) (mints : ∀ t ∈ ts, ∀ n, t.note = .mint n → n.mint_amount.val < 2 ^ 127) {time : U64}
    (now : validateTxnsBatch d s (ts.map (·.note)) time = .ok ()) {later : List Step}
    (run : runFrom d s (later.map Step.event) = .ok s') (later_sat : AllSatisfied d later)
    (idle : ∀ t ∈ ts, ∀ x ∈ t.spends, ∀ y ∈ openedSpends later, Reads x.1 y.2.ro → ¬ HoldsKey y.2 x.1) :
    ∃ os : List Opening, os.map Opening.note = ts.map (·.note) ∧ (∀ o ∈ os, o.Satisfied d.val) ∧
      os.map (fun o => o.spends.map (fun x => (x.ro, x.acc))) =
        ts.map (fun t => t.spends.map (fun x => (x.1.toV, x.2.toV))) ∧
      ((∀ o ∈ os, ∀ x ∈ o.spends, ∀ y ∈ openedSpends later, ¬ Clash x y.2) →
        ∀ time', validateTxnsBatch d s' (ts.map (·.note)) time' = .ok () ↔
          ∀ n, .transfer n ∈ ts.map (·.note) → time' ≤ n.aux_info.valid_until) := by
  obtain ⟨os, h1, h2, h3⟩ := made_opened made mints
  refine ⟨os, h1, h2, h3, fun nc time' => ⟨fun ok => ((C72_stays batch (by simpa using ne) now run time').1 ok).1, ?_⟩⟩
  intro fresh
  by_contra refused
  rw [← h1] at now refused
  have ne' : os ≠ [] := by
    rintro rfl
    rw [List.map_nil, eq_comm, List.map_eq_nil_iff] at h1
    exact ne h1
  rcases C74_blocked batch ne' h2 now run later_sat refused with ⟨n, hn, hlt⟩ | ⟨o, ho, x, hx, y, hy, h | h⟩
  · exact absurd (fresh n (h1 ▸ hn)) (not_le.2 hlt)
  · have hm : o.spends.map (fun x => (x.ro, x.acc)) ∈ ts.map (fun t => t.spends.map (fun x => (x.1.toV, x.2.toV))) :=
      h3 ▸ List.mem_map_of_mem ho
    obtain ⟨t, ht, he⟩ := List.mem_map.1 hm
    have hx' := List.mem_map_of_mem (f := fun x : Spend => (x.ro, x.acc)) hx
    rw [← he] at hx'
    obtain ⟨z, hz, e⟩ := List.mem_map.1 hx'
    rw [Prod.mk.injEq] at e
    obtain ⟨r1, r2⟩ := h.2 z.1 (by rw [← e.1]; exact Reads.toV _)
    exact idle t ht z hz y hy r1 r2
  · exact nc o ho x hx y hy h

/-- **It goes in.**  A block of acceptable transactions is inserted as long as the tree has room for its records and the fees
can be added up. -/
theorem C74_included {d : Fin 256} {s : LedgerState} {ts : List Txn} {time : U64}
    (valid : validateTxnsBatch d s (ts.map (·.note)) time = .ok ())
    (room : Room d s ((ts.map (fun t => t.note.outputLen)).sum + 1))
    (fees : (ts.map (fun t => t.note.fee.val)).sum < 2 ^ 128) (blind : F) (who : UserPubKey) :
    ∃ s', (Event.block ts blind who time).apply d s = .ok s' ∧
      ∀ t ∈ ts, (∀ c ∈ t.note.outputCommitments, c ∈ s'.leaves) ∧ ∀ x ∈ t.note.nullifiers, x ∈ s'.nullifiers := by
  obtain ⟨s', h⟩ := (insertBlock_iff (d := d.val) (b := ⟨ts.map (·.note), blind, who⟩) (s := s)).2
    ⟨by rw [List.map_map]; exact room, by rw [List.map_map]; exact fees⟩
  refine ⟨s', bind_ok_iff.2 ⟨(), valid, h⟩, fun t ht => ?_⟩
  obtain ⟨fee, -, e1, -, e3, -⟩ := LedgerState.insertBlock_ok h
  refine ⟨fun c hc => ?_, fun x hx => (e3 x).2 (.inl (List.mem_flatMap.2 ⟨_, List.mem_map_of_mem ht, hx⟩))⟩
  rw [e1]
  exact List.mem_append_left _ (List.mem_append_right _ (List.mem_flatMap.2 ⟨_, List.mem_map_of_mem ht, hc⟩))

/-- **For pending notes and a history of which only acceptance is known.** -/
theorem C74_accepted (sound : SnarkSound) (batch : SnarkBatch) {d : Fin 256} {s s' : LedgerState}
    {txns : List TransactionNote} (ne : txns ≠ []) {time : U64} (now : validateTxnsBatch d s txns time = .ok ())
    {es : List Event} (run : runFrom d s es = .ok s') :
    ∃ (pending : List Opening) (later : List Step), pending.map Opening.note = txns ∧ (∀ o ∈ pending, o.Satisfied d) ∧
      List.Forall₂ SameNotes es later ∧ AllSatisfied d later ∧
      ∀ time', validateTxnsBatch d s' txns time' ≠ .ok () →
        (∃ n, .transfer n ∈ txns ∧ n.aux_info.valid_until < time') ∨
        ∃ o ∈ pending, ∃ x ∈ o.spends, ∃ y ∈ openedSpends later,
          (y.2.acc.uid = x.acc.uid ∧ ∀ ro, Reads ro x.ro → Reads ro y.2.ro ∧ HoldsKey y.2 ro) ∨ Clash x y.2 := by
  obtain ⟨os, rfl, h2⟩ := block_opened sound batch now
  obtain ⟨later, h3, h4, h5⟩ := opened_from sound batch run
  exact ⟨os, later, rfl, h2, h3, h4, fun time' refused =>
    C74_blocked batch (by simpa using ne) h2 now h5 h4 refused⟩

end Cap

namespace Cap.Examples

open Toy Spec

/-! The two mints of C52: Alice's is pending while Bob's goes in. -/

theorem rich_made1 : Made 2 richTxn1 := let ⟨_, h⟩ := rich1_eq; .mint keys2 h
theorem rich_made2 : Made 2 richTxn2 := let ⟨_, h⟩ := rich2_eq; .mint keys2 h
theorem rich_mint1 : ∀ n, richTxn1.note = .mint n → n.mint_amount.val < 2 ^ 127 := by
  rintro n hn
  obtain ⟨sk, e⟩ := rich1_eq
  cases hn
  rw [(C18_fields e).1]
  decide +kernel
theorem rich_mint2 : ∀ n, richTxn2.note = .mint n → n.mint_amount.val < 2 ^ 127 := by
  rintro n hn
  obtain ⟨sk, e⟩ := rich2_eq
  cases hn
  rw [(C18_fields e).1]
  decide +kernel

/-- the assignment behind Bob's mint -/
noncomputable def richOpen2 : Opening := (rich_made2.opens rich_mint2).choose
theorem richOpen2_ok : OpensTxn 2 richTxn2 richOpen2 := (rich_made2.opens rich_mint2).choose_spec

theorem rich_later : ∃ s', runFrom 2 richLedger ([Step.block [richOpen2] 2 alice.pubKey 6].map Step.event) = .ok s' := by
  obtain ⟨s1, h1⟩ : ∃ s1, richLedger.insertBlock 2 ⟨[richTxn2.note], (2 : ZMod p), alice.pubKey⟩ = .ok s1 :=
    insertBlock_iff.2 ⟨⟨by decide, by decide⟩, by
      show richNote2.aux_info.fee.val + 0 < _
      have := richNote2.aux_info.fee.isLt
      omega⟩
  refine ⟨s1, ?_⟩
  show runFrom 2 richLedger [.block [⟨richOpen2.note, [], []⟩] 2 alice.pubKey 6] = _
  rw [richOpen2_ok.note]
  exact bind_ok_iff.2 ⟨_, bind_ok_iff.2 ⟨(), rich_valid2, h1⟩, rfl⟩

theorem rich_spent {y : Opening × Spend} (hy : y ∈ openedSpends [Step.block [richOpen2] 2 alice.pubKey 6]) :
    y.2 ∈ richOpen2.spends ∧ y.2.ro = rich2.toV := by
  simp only [openedSpends, List.mem_flatMap, List.mem_singleton, List.mem_map] at hy
  obtain ⟨e, rfl, o, ho, x, hx, rfl⟩ := hy
  simp only [Step.txns, List.mem_singleton] at ho
  subst ho
  have := List.mem_map_of_mem (f := fun x : Spend => (x.ro, x.acc)) hx
  rw [richOpen2_ok.spends] at this
  exact ⟨hx, (Prod.mk.inj (List.mem_singleton.1 this)).1⟩

/-- `C74_idle`: Alice's mint stays acceptable, at any time (mints do not expire) -/
example : ∃ s', runFrom 2 richLedger ([Step.block [richOpen2] 2 alice.pubKey 6].map Step.event) = .ok s' ∧
    ∀ time', validateTxnsBatch 2 s' [richTxn1.note] time' = .ok () := by
  obtain ⟨s', hs⟩ := rich_later
  refine ⟨s', hs, fun time' => ?_⟩
  obtain ⟨os, h1, h2, h3, h4⟩ := C74_idle batch (ts := [richTxn1]) (by simp)
    (by intro t ht; obtain rfl := List.mem_singleton.1 ht; exact rich_made1)
    (by intro t ht; obtain rfl := List.mem_singleton.1 ht; exact rich_mint1) rich_valid1 hs
    (by
      intro e he o ho
      obtain rfl := List.mem_singleton.1 he
      obtain rfl := List.mem_singleton.1 ho
      exact richOpen2_ok.satisfied)
    (by
      intro t ht x hx y hy hr
      obtain rfl := List.mem_singleton.1 ht
      obtain rfl := List.mem_singleton.1 hx
      rw [(rich_spent hy).2] at hr
      exact absurd (reads_iff.1 hr).1 (by decide +kernel))
  refine (h4 ?_ time').2 ?_
  · intro o ho x hx y hy hc
    have hsp : x.ro = rich1.toV := by
      have hm : o.spends.map (fun x => (x.ro, x.acc)) ∈ [richTxn1].map (fun t => t.spends.map (fun x => (x.1.toV, x.2.toV))) :=
        h3 ▸ List.mem_map_of_mem ho
      have hx' := List.mem_map_of_mem (f := fun x : Spend => (x.ro, x.acc)) hx
      rw [List.mem_singleton.1 hm] at hx'
      exact (Prod.mk.inj (List.mem_singleton.1 hx')).1
    have hno : o.note = richTxn1.note := by
      have := List.mem_map_of_mem (f := Opening.note) ho
      rw [h1] at this
      exact List.mem_singleton.1 this
    rcases hc with hc | hc
    · have a : x.nullifier ∈ richTxn1.note.nullifiers := by
        rw [← hno, (h2 o ho).nullifiers.1]; exact List.mem_map_of_mem hx
      have b : y.2.nullifier ∈ richTxn2.note.nullifiers := by
        rw [← richOpen2_ok.note, richOpen2_ok.satisfied.nullifiers.1]
        exact List.mem_map_of_mem (rich_spent hy).1
      have a' := List.mem_singleton.1 (show _ ∈ [richNote1.input_nullifier] from a)
      have b' := List.mem_singleton.1 (show _ ∈ [richNote2.input_nullifier] from b)
      exact rich_nullifiers (a'.symm.trans (Eq.trans hc.2 b'))
    · have := hc.2
      rw [hsp, (rich_spent hy).2] at this
      exact absurd this (by decide +kernel)
  · intro n hn
    exact absurd (List.mem_singleton.1 hn) (by intro h; cases h)

/-- `C74_included`: and then it goes in -/
example : Room 2 richLedger (([richTxn1].map (fun t => t.note.outputLen)).sum + 1) ∧
    ([richTxn1].map (fun t => t.note.fee.val)).sum < 2 ^ 128 :=
  ⟨⟨by decide, by decide⟩, by
    show richNote1.aux_info.fee.val + 0 < _
    have := richNote1.aux_info.fee.isLt
    omega⟩

/-- `C74_blocked`: the payment of C44, once it is in the ledger, is refused -/
example : (∀ o ∈ [open1], o.Satisfied 2) ∧ validateTxnsBatch 2 led0 ([open1].map Opening.note) 700 = .ok () ∧
    runFrom 2 led0 ([Step.block [open1] 47 bob.pubKey 700].map Step.event) = .ok led1 ∧
    AllSatisfied 2 [Step.block [open1] 47 bob.pubKey 700] ∧
    validateTxnsBatch 2 led1 ([open1].map Opening.note) 700 ≠ .ok () := by
  have hn : [open1].map Opening.note = [txn1.note] := congrArg (· :: []) open1_ok.note
  have later : runFrom 2 led0 ([Step.block [open1] 47 bob.pubKey 700].map Step.event) = .ok led1 := by
    show runFrom 2 led0 [.block [⟨open1.note, [], []⟩] 47 bob.pubKey 700] = _
    rw [open1_ok.note]
    exact bind_ok_iff.2 ⟨_, bind_ok_iff.2 ⟨(), valid1, led1_ok⟩, rfl⟩
  refine ⟨?_, by rw [hn]; exact valid1, later, ?_, ?_⟩
  · intro o ho; obtain rfl := List.mem_singleton.1 ho; exact open1_ok.satisfied
  · intro e he o ho
    obtain rfl := List.mem_singleton.1 he
    obtain rfl := List.mem_singleton.1 ho
    exact open1_ok.satisfied
  · rw [hn]
    have hx : userNullifier feeRec ⟨treePath 2 tree1 0, treeRoot 2 tree1, 0⟩ alice ∈ txn1.note.nullifiers := by
      show _ ∈ note1.inputs_nullifiers
      rw [note1_nullifiers]
      exact List.mem_cons_self
    refine C72_spent batch later (e := .block [⟨open1.note, [], []⟩] 47 bob.pubKey 700) List.mem_cons_self
      (u := ⟨open1.note, [], []⟩) List.mem_cons_self (t := txn1.note) List.mem_cons_self ?_ hx 700
    rw [open1_ok.note]
    exact hx

/-- `C74_accepted` -/
example : SnarkSound ∧ SnarkBatch ∧ validateTxnsBatch 2 led0 [txn1.note] 700 = .ok () ∧
    runFrom 2 led0 [.block [txn1] 47 bob.pubKey 700] = .ok led1 :=
  ⟨sound, batch, valid1, bind_ok_iff.2 ⟨_, bind_ok_iff.2 ⟨(), valid1, led1_ok⟩, rfl⟩⟩

end Cap.Examples
