/-
The reference ledger: what insertion and validation do, and what honestly made transactions give.
-/
import Verif.Lemmas.Tree
import Verif.Lemmas.BalanceExact
import Verif.Props.C10
import Verif.Props.C11
import Verif.Props.C17
import Verif.Props.C18
import Verif.Props.C19
import Verif.Props.C22
import Verif.Props.C25
import Verif.Props.C40
import Verif.Props.C03

namespace Cap

open Spec

variable [E : CapEnv]

/-! ### Insertion -/

namespace LedgerState

theorem insertRecord_ok {d : ℕ} {s s' : LedgerState} {rc : F} (h : insertRecord d s rc = .ok s') :
    s' = { s with leaves := s.leaves ++ [rc] } ∧ s'.leaves.length < 2 ^ 64 ∧ s'.leaves.length ≤ 3 ^ d := by
  unfold insertRecord at h
  split at h
  · rename_i hc
    cases h
    refine ⟨rfl, ?_, ?_⟩
    · simpa using hc.2
    · simpa using hc.1
  · cases h

theorem insertRecords_ok {d : ℕ} {rcs : List F} : ∀ {s s' : LedgerState}, insertRecords d s rcs = .ok s' →
    s' = { s with leaves := s.leaves ++ rcs } := by
  induction rcs with
  | nil => intro s s' h; cases h; simp
  | cons rc rcs ih =>
    intro s s' h
    rw [insertRecords, bind_ok_iff] at h
    obtain ⟨s1, h1, h2⟩ := h
    rw [ih h2, (insertRecord_ok h1).1]
    simp

variable [S : CapExt]

theorem insertNote_ok {d : ℕ} {s s' : LedgerState} {t : TransactionNote} (h : insertNote d s t = .ok s') :
    s' = { s with leaves := s.leaves ++ t.outputCommitments, nullifiers := t.nullifiers ++ s.nullifiers } := by
  cases t with
  | transfer n =>
    rw [insertNote, bind_ok_iff] at h
    obtain ⟨s1, h1, h2⟩ := h
    cases h2
    rw [insertRecords_ok h1]
    rfl
  | mint n =>
    simp only [insertNote, bind_ok_iff] at h
    obtain ⟨s1, h1, s2, h2, h3⟩ := h
    cases h3
    rw [(insertRecord_ok h2).1, (insertRecord_ok h1).1]
    simp [insertNullifiers, TransactionNote.outputCommitments, TransactionNote.nullifiers]
  | freeze n =>
    rw [insertNote, bind_ok_iff] at h
    obtain ⟨s1, h1, h2⟩ := h
    cases h2
    rw [insertRecords_ok h1]
    rfl

theorem insertNotes_ok {d : ℕ} {ts : List TransactionNote} : ∀ {s s' : LedgerState}, insertNotes d s ts = .ok s' →
    s'.leaves = s.leaves ++ ts.flatMap TransactionNote.outputCommitments ∧ s'.roots = s.roots ∧
      ∀ x, x ∈ s'.nullifiers ↔ x ∈ ts.flatMap TransactionNote.nullifiers ∨ x ∈ s.nullifiers := by
  induction ts with
  | nil => intro s s' h; cases h; simp
  | cons t ts ih =>
    intro s s' h
    rw [insertNotes, bind_ok_iff] at h
    obtain ⟨s1, h1, h2⟩ := h
    obtain ⟨e1, e2, e3⟩ := ih h2
    rw [insertNote_ok h1] at e1 e2 e3
    refine ⟨by rw [e1]; simp, e2, fun x => ?_⟩
    rw [e3]
    simp only [List.mem_append, List.flatMap_cons]
    tauto

theorem insertBlock_ok {d : ℕ} {s s' : LedgerState} {b : MockBlock} (h : insertBlock d s b = .ok s') :
    ∃ fee, calculateFee b.txns = .ok fee ∧
      s'.leaves = s.leaves ++ b.txns.flatMap TransactionNote.outputCommitments ++
        [(feeRecord b.proposer_pub_key fee b.fee_blind).commitment] ∧
      s'.roots = treeRoot d s'.leaves :: s.roots ∧
      (∀ x, x ∈ s'.nullifiers ↔ x ∈ b.txns.flatMap TransactionNote.nullifiers ∨ x ∈ s.nullifiers) ∧
      s'.leaves.length < 2 ^ 64 ∧ s'.leaves.length ≤ 3 ^ d := by
  simp only [insertBlock, MockBlock.feeRecordCommitment, bind_ok_iff] at h
  obtain ⟨s1, h1, rc, ⟨fee, hf, h2⟩, s2, h3, h4⟩ := h
  obtain ⟨e1, e2, e3⟩ := insertNotes_ok h1
  obtain ⟨e4, e5, e6⟩ := insertRecord_ok h3
  cases h2
  cases h4
  refine ⟨fee, hf, ?_, ?_, ?_, e5, e6⟩
  · show s2.leaves = _
    rw [e4, e1]
  · show treeRoot d s2.leaves :: s2.roots = treeRoot d s2.leaves :: s.roots
    rw [show s2.roots = s.roots by rw [e4]; exact e2]
  · intro x
    show x ∈ s2.nullifiers ↔ _
    rw [show s2.nullifiers = s1.nullifiers by rw [e4]]
    exact e3 x

theorem grant_ok {d : ℕ} {s s' : LedgerState} {ro : RecordOpening} (h : grant d s ro = .ok s') :
    s'.leaves = s.leaves ++ [ro.commitment] ∧ s'.roots = treeRoot d s'.leaves :: s.roots ∧
      s'.nullifiers = s.nullifiers ∧ s'.leaves.length < 2 ^ 64 ∧ s'.leaves.length ≤ 3 ^ d := by
  rw [grant, bind_ok_iff] at h
  obtain ⟨s1, h1, h2⟩ := h
  obtain ⟨e1, e2, e3⟩ := insertRecord_ok h1
  cases h2
  refine ⟨by show s1.leaves = _; rw [e1], ?_, by show s1.nullifiers = _; rw [e1], e2, e3⟩
  show treeRoot d s1.leaves :: s1.roots = treeRoot d s1.leaves :: s.roots
  rw [show s1.roots = s.roots by rw [e1]]

end LedgerState

/-! ### Validation -/

omit E in
theorem insertAll_some [E : CapEnv] {l : List F} : ∀ {checked res : List F}, insertAll checked l = some res →
    l.Nodup ∧ (∀ x ∈ l, x ∉ checked) ∧ ∀ x, x ∈ res ↔ x ∈ l ∨ x ∈ checked := by
  induction l with
  | nil => intro checked res h; cases h; simp
  | cons a l ih =>
    intro checked res h
    rw [insertAll] at h
    split at h
    · cases h
    · rename_i ha
      obtain ⟨h1, h2, h3⟩ := ih h
      refine ⟨?_, ?_, fun x => ?_⟩
      · rw [List.nodup_cons]
        exact ⟨fun hm => h2 a hm List.mem_cons_self, h1⟩
      · intro x hx hc
        rcases List.mem_cons.1 hx with rfl | hx
        · exact ha hc
        · exact h2 x hx (List.mem_cons_of_mem _ hc)
      · rw [h3]
        simp only [List.mem_cons]
        tauto

variable [S : CapExt]

theorem checkTxnInputNullifiers_ok {s : LedgerState} {l checked res : List F}
    (h : checkTxnInputNullifiers s l checked = .ok res) :
    (∀ x ∈ l, x ∉ s.nullifiers) ∧ l.Nodup ∧ (∀ x ∈ l, x ∉ checked) ∧ ∀ x, x ∈ res ↔ x ∈ l ∨ x ∈ checked := by
  unfold checkTxnInputNullifiers at h
  split at h
  · cases h
  · rename_i ha
    split at h
    · rename_i r hr
      cases h
      refine ⟨?_, insertAll_some hr⟩
      simpa using ha
    · cases h

theorem validateLoop_ok {d : Fin 256} {s : LedgerState} {ts : List TransactionNote} :
    ∀ {checked : List F} {r}, validateLoop d s ts checked = .ok r →
      (∀ t ∈ ts, t.merkleRoot ∈ s.roots) ∧ (ts.flatMap TransactionNote.nullifiers).Nodup ∧
      (∀ x ∈ ts.flatMap TransactionNote.nullifiers, x ∉ s.nullifiers ∧ x ∉ checked) ∧
      r.2 = ts.map TransactionNote.merkleRoot ∧ List.Forall₂ (fun t k => keyForNote d t = .ok k) ts r.1 := by
  induction ts with
  | nil => intro checked r h; cases h; simp
  | cons t ts ih =>
    intro checked r h
    simp only [validateLoop, bind_ok_iff, ensure_ok_iff, decide_eq_true_eq] at h
    obtain ⟨k, hk, res, hres, _, hroot, r', hr', h⟩ := h
    cases h
    obtain ⟨i1, i2, i3, i4, i5⟩ := ih hr'
    obtain ⟨c1, c2, c3, c4⟩ := checkTxnInputNullifiers_ok hres
    refine ⟨?_, ?_, ?_, ?_, .cons hk i5⟩
    · intro t' ht'
      rcases List.mem_cons.1 ht' with rfl | ht'
      · exact hroot
      · exact i1 t' ht'
    · rw [List.flatMap_cons, List.nodup_append']
      refine ⟨c2, i2, fun x hx hx' => ?_⟩
      exact (i3 x hx').2 ((c4 x).2 (Or.inl hx))
    · intro x hx
      rw [List.flatMap_cons, List.mem_append] at hx
      rcases hx with hx | hx
      · exact ⟨c1 x hx, c3 x hx⟩
      · exact ⟨(i3 x hx).1, fun hc => (i3 x hx).2 ((c4 x).2 (Or.inr hc))⟩
    · simp [i4]

theorem validateTxnsBatch_ok {d : Fin 256} {s : LedgerState} {ts : List TransactionNote} {timestamp : U64}
    (h : validateTxnsBatch d s ts timestamp = .ok ()) :
    (∀ t ∈ ts, t.merkleRoot ∈ s.roots) ∧ (ts.flatMap TransactionNote.nullifiers).Nodup ∧
      (∀ x ∈ ts.flatMap TransactionNote.nullifiers, x ∉ s.nullifiers) ∧
      ∃ ks, List.Forall₂ (fun t k => keyForNote d t = .ok k) ts ks ∧
        txnBatchVerify ts (ts.map TransactionNote.merkleRoot) timestamp ks = .ok () := by
  rw [validateTxnsBatch, bind_ok_iff] at h
  obtain ⟨r, h1, h2⟩ := h
  obtain ⟨i1, i2, i3, i4, i5⟩ := validateLoop_ok h1
  rw [i4] at h2
  exact ⟨i1, i2, fun x hx => (i3 x hx).1, r.1, i5, h2⟩

/-! ### Honestly made transactions -/

namespace Spec

theorem Made.commitments {d : Fin 256} {t : Txn} (h : Made d t) :
    t.note.outputCommitments = t.creates.map RecordOpening.commitment := by
  cases h with
  | transfer keys gen => exact transfer_commitments gen
  | mint keys gen =>
    obtain ⟨-, -, h3, h4, -⟩ := C18_fields gen
    simp [TransactionNote.outputCommitments, h3, h4]
  | freeze keys gen =>
    exact (C06_generated gen).2

theorem Made.nullifiers {d : Fin 256} {t : Txn} (h : Made d t) :
    List.Forall₂ (fun (x : RecordOpening × AccMemberWitness) nf => GeneratedSpend t.note x.1 x.2.uid nf)
      t.spends t.note.nullifiers := by
  cases h with
  | transfer keys gen =>
    rw [List.forall₂_iff_get]
    refine ⟨?_, fun k h1 h2 => ?_⟩
    · simp [TransactionNote.nullifiers, transfer_nullifiers gen]
    · simp only [List.length_map] at h1
      have := GeneratedSpend.transfer gen (k := k) (List.getElem?_eq_getElem h1)
        (List.getElem?_eq_getElem h2)
      simpa using this
  | mint keys gen => exact .cons (GeneratedSpend.mint gen) .nil
  | freeze keys gen hf hp =>
    rename_i num pk vk rng n sk outs inputs fee
    rw [List.forall₂_iff_get]
    refine ⟨?_, fun k h1 h2 => ?_⟩
    · simp [TransactionNote.nullifiers, freeze_nullifiers gen]
    · cases k with
      | zero =>
        exact GeneratedSpend.freeze_fee gen (List.getElem?_eq_getElem h2)
      | succ k =>
        simp only [List.length_cons, List.length_map, Nat.add_lt_add_iff_right] at h1
        have := GeneratedSpend.freeze gen (k := k) (List.getElem?_eq_getElem h1) (List.getElem?_eq_getElem h2)
        simpa using this

theorem Made.member {d : Fin 256} {t : Txn} (h : Made d t) {x : RecordOpening × AccMemberWitness}
    (hx : x ∈ t.realSpends) :
    merkleRoot (x.2.uid.val : F) x.1.commitment x.2.path = t.note.merkleRoot ∧ x.2.path.length = d.val := by
  unfold Txn.realSpends at hx
  rw [List.mem_filter, decide_eq_true_eq] at hx
  obtain ⟨hx, hc⟩ := hx
  cases h with
  | transfer keys gen =>
    obtain ⟨i, hi, rfl⟩ := List.mem_map.1 hx
    obtain ⟨-, -, -, -, h5, -, h7, -⟩ := C40_generate gen
    refine ⟨h7 i hi hc, ?_⟩
    rw [h5 i hi, (transferPreprocess_ok keys).2.2.2]
  | mint keys gen =>
    obtain rfl := List.mem_singleton.1 hx
    have h := MintNote.generate_ok.1 gen
    obtain ⟨-, -, -, -, -, h6, -⟩ := C18_fields gen
    refine ⟨h.checks.fee_ok.member.trans h6.symm, ?_⟩
    rw [← (mintPreprocess_ok keys).2]
    exact h.checks.path
  | freeze keys gen hf hp =>
    rename_i num pk vk rng n sk outs inputs fee
    have h := FreezeNote.generate_ok.1 gen
    have hroot : n.aux_info.merkle_root = fee.fee_input.acc.root := congrArg FreezePublicInput.merkle_root h.pub
    rcases List.mem_cons.1 hx with rfl | hx
    · exact ⟨h.checks.fee_ok.member.trans hroot.symm, hf⟩
    · obtain ⟨i, hi, rfl⟩ := List.mem_map.1 hx
      refine ⟨?_, hp i hi⟩
      obtain ⟨k, hk⟩ := List.mem_iff_getElem?.1 hi
      have hs := h.sat.1.spends
      obtain ⟨o, ho⟩ : ∃ o, (freezeGetOutputRos rng.blinds inputs)[k]? = some o := by
        rw [freezeGetOutputRos, List.getElem?_mapIdx, hk]
        exact ⟨_, rfl⟩
      have hx : (freezeWitV rng.blinds inputs fee).inputs[k]? =
          some ⟨i.ro.toV, i.acc.toV, frToFq i.keypair.sec_key, o.toV⟩ :=
        freezeInputsV_getElem? k _ _ _ _ (by simp [hk]) (by simp [hk]) (by simp [hk]) ho
      have hn : (freezePubV rng.blinds inputs fee).nullifiers[k]? = some (freezeNullifier i.keypair i.ro i.acc) := by
        simp [freezePubV, hk]
      have := hs (_, _) (List.mem_iff_getElem?.2 ⟨k, List.getElem?_zip_eq_some.2 ⟨hx, hn⟩⟩)
      have hr := this.2.2.1.resolve_right (by
        show ¬ i.ro.toV.isDummy = true
        rw [RecordOpening.toV_isDummy]
        exact hc)
      unfold spendRoot at hr
      rw [RecordOpening.toV_commitment] at hr
      exact hr.trans hroot.symm

/-! ### Amounts -/

omit S in
theorem totalOf_append (c : AssetCode) (l m : List RecordOpening) :
    totalOf c (l ++ m) = totalOf c l + totalOf c m := by
  simp [totalOf]

omit S in
theorem totalOf_flatMap {α : Type} (c : AssetCode) (l : List α) (f : α → List RecordOpening) :
    totalOf c (l.flatMap f) = (l.map (fun a => totalOf c (f a))).sum := by
  induction l with
  | nil => rfl
  | cons a l ih => simp [totalOf_append, ih]

omit S in
theorem totalOf_filter {c : AssetCode} {q : RecordOpening → Bool} (l : List RecordOpening)
    (h : ∀ r, r.asset_def.code = c → q r = true) : totalOf c (l.filter q) = totalOf c l := by
  induction l with
  | nil => rfl
  | cons r l ih =>
    rw [List.filter_cons]
    by_cases hq : q r = true
    · rw [if_pos hq, totalOf_cons, totalOf_cons, ih]
    · rw [if_neg hq, totalOf_cons, ih, if_neg (fun hc => hq (h r hc)), Nat.zero_add]

omit S in
theorem totalOf_forall₂ {α : Type} {c : AssetCode} {f : α → RecordOpening} {l : List α} {m : List RecordOpening}
    (h : List.Forall₂ (fun a o => (f a).amount = o.amount ∧ (f a).asset_def.code = o.asset_def.code) l m) :
    totalOf c (l.map f) = totalOf c m := by
  induction h with
  | nil => rfl
  | cons hab _ ih => rw [List.map_cons, totalOf_cons, totalOf_cons, ih, hab.1, hab.2]

theorem realSpends_total {c : AssetCode} (hc : c ≠ dummyCode) (t : Txn) :
    totalOf c (t.realSpends.map (·.1)) = totalOf c (t.spends.map (·.1)) := by
  unfold Txn.realSpends
  rw [← totalOf_filter (c := c) (q := fun r => r.asset_def.code ≠ dummyCode) (t.spends.map (·.1))]
  · congr 1
    rw [List.filter_map]
    rfl
  · intro r hr
    simpa [hr] using hc

/-- what a single mint note publishes as minted -/
def Txn.minted (c : AssetCode) (t : Txn) : ℕ :=
  match t.note with
  | .mint n => if n.mint_asset_def.code = c then n.mint_amount.val else 0
  | _ => 0

/-- **A made transaction balances**, for every asset but the dummy. -/
theorem Made.balance {d : Fin 256} {t : Txn} (h : Made d t) {c : AssetCode} (hc : c ≠ dummyCode) :
    totalOf c (t.realSpends.map (·.1)) + t.minted c =
      totalOf c t.creates + (if c = nativeCode then t.note.fee.val else 0) := by
  rw [realSpends_total hc]
  cases h with
  | transfer keys gen =>
    rename_i inputs outputs _ _ n _
    obtain ⟨i0, is, hi, hb⟩ := C25_published gen
    obtain ⟨-, -, -, -, -, -, -, -, -, -, -, -, h13, -⟩ := C40_generate gen
    have hnat : i0.asset_def.code = nativeCode := by
      cases inputs with
      | nil => simp at hi
      | cons j js =>
        simp only [List.map_cons, List.cons.injEq] at hi
        have := h13 j rfl
        rw [← hi.1, this]
        rfl
    have hb := hb c
    rw [hnat] at hb
    have hreal : totalOf c (real (inputs.map (·.ro))) = totalOf c (inputs.map (·.ro)) := by
      refine totalOf_filter _ ?_
      intro r hr
      rw [decide_eq_true_eq]
      rintro he
      rw [he] at hr
      exact hc hr.symm
    rw [hreal] at hb
    simp only [List.map_map, Function.comp_def, Txn.minted, Nat.add_zero]
    exact hb
  | mint keys gen =>
    obtain ⟨h1, h2, -⟩ := C18_fields gen
    obtain ⟨h3, h4, h5⟩ := C03_mint_generated gen
    simp only [List.map_cons, List.map_nil, totalOf_cons, Txn.minted, h1, h2, h4, h5, TransactionNote.fee]
    have e : AssetDefinition.native.code = (nativeCode : F) := rfl
    rw [e]
    by_cases hn : nativeCode = c
    · simp only [if_pos hn, if_pos hn.symm]; omega
    · have hn' : ¬ c = nativeCode := fun h => hn h.symm
      simp only [if_neg hn, if_neg hn']; omega
  | freeze keys gen hf hp =>
    rename_i num pk vk rng n sk outs inputs fee
    obtain ⟨h3, h4, h5⟩ := C03_freeze_generated gen
    have ho := (C06_generated gen).1
    have : totalOf c (inputs.map (·.ro)) = totalOf c outs := by
      refine totalOf_forall₂ (ho.imp ?_)
      intro i o hio
      rw [hio]
      exact ⟨rfl, rfl⟩
    simp only [List.map_cons, List.map_map, Function.comp_def, totalOf_cons, Txn.minted, h4, h5, TransactionNote.fee]
    rw [show (List.map (fun x => x.ro) inputs) = inputs.map (·.ro) from rfl, this]
    have e : AssetDefinition.native.code = (nativeCode : F) := rfl
    rw [e]
    by_cases hn : nativeCode = c
    · simp only [if_pos hn, if_pos hn.symm]; omega
    · have hn' : ¬ c = nativeCode := fun h => hn h.symm
      simp only [if_neg hn, if_neg hn']

end Spec

end Cap
