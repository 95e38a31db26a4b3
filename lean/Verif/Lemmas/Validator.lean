/-
The reference validator: exactly when a block is accepted and inserted.
-/
import Verif.Lemmas.LedgerAccept
import Verif.Model.Validator

namespace Cap

open Spec

variable [E : CapEnv]

theorem pushRecord_ok {d : ℕ} {rc : F} {s : LedgerState} (h : Room d s 1) :
    pushRecord d rc s = ({ s with leaves := s.leaves ++ [rc] }, .ok ()) := by
  unfold Room at h
  unfold pushRecord
  rw [if_pos (by omega)]

theorem pushRecord_full {d : ℕ} {rc : F} {s : LedgerState} (h : ¬ Room d s 1) :
    pushRecord d rc s = (s, .error .panic) := by
  unfold Room at h
  unfold pushRecord
  rw [if_neg (by omega)]

theorem pushRecords_ok {d : ℕ} : ∀ {rcs : List F} {s : LedgerState}, Room d s rcs.length →
    pushRecords d rcs s = ({ s with leaves := s.leaves ++ rcs }, .ok ())
  | [], s, _ => by simp [pushRecords]
  | rc :: rcs, s, h => by
    unfold Room at h
    rw [List.length_cons] at h
    rw [pushRecords, Update.andThen, pushRecord_ok (by unfold Room; omega)]
    dsimp only
    rw [pushRecords_ok (by unfold Room; simp only [List.length_append, List.length_singleton]; omega)]
    simp

theorem pushRecords_full {d : ℕ} : ∀ {rcs : List F} {s : LedgerState}, Room d s 0 → ¬ Room d s rcs.length →
    (pushRecords d rcs s).2 = .error .panic
  | [], s, h, h' => absurd h h'
  | rc :: rcs, s, h0, h => by
    unfold Room at h
    rw [List.length_cons] at h
    by_cases h1 : Room d s 1
    · rw [pushRecords, Update.andThen, pushRecord_ok h1]
      dsimp only
      unfold Room at h1
      exact pushRecords_full (by unfold Room; simp only [List.length_append, List.length_singleton]; omega)
        (by unfold Room; simp only [List.length_append, List.length_singleton]; omega)
    · rw [pushRecords, Update.andThen, pushRecord_full h1]

variable [S : CapExt]

theorem pushNote_ok {d : ℕ} {t : TransactionNote} {s : LedgerState} (h : Room d s t.outputCommitments.length) :
    pushNote d t s = ({ s with leaves := s.leaves ++ t.outputCommitments, nullifiers := t.nullifiers ++ s.nullifiers },
      .ok ()) := by
  cases t with
  | transfer n =>
    rw [pushNote, Update.andThen, pushRecords_ok (by exact h)]
    rfl
  | mint n =>
    unfold Room at h
    simp only [TransactionNote.outputCommitments, List.length_cons, List.length_nil] at h
    rw [pushNote, Update.andThen, Update.andThen, pushRecord_ok (by unfold Room; omega)]
    dsimp only
    rw [pushRecord_ok (by unfold Room; simp only [List.length_append, List.length_singleton]; omega)]
    simp [LedgerState.insertNullifiers, TransactionNote.outputCommitments, TransactionNote.nullifiers]
  | freeze n =>
    rw [pushNote, Update.andThen, pushRecords_ok (by exact h)]
    rfl

theorem pushNote_full {d : ℕ} {t : TransactionNote} {s : LedgerState} (ne : Room d s 0)
    (h : ¬ Room d s t.outputCommitments.length) : (pushNote d t s).2 = .error .panic := by
  cases t with
  | transfer n =>
    have := pushRecords_full ne h
    rw [pushNote, Update.andThen]
    simp only [TransactionNote.outputCommitments] at this
    generalize pushRecords d n.output_commitments s = r at this
    obtain ⟨s', r⟩ := r
    cases this
    rfl
  | mint n =>
    unfold Room at h
    simp only [TransactionNote.outputCommitments, List.length_cons, List.length_nil] at h
    rw [pushNote, Update.andThen, Update.andThen]
    by_cases h1 : Room d s 1
    · rw [pushRecord_ok h1]
      dsimp only
      rw [pushRecord_full (by unfold Room; simp only [List.length_append, List.length_singleton]; omega)]
    · rw [pushRecord_full h1]
  | freeze n =>
    have := pushRecords_full ne h
    rw [pushNote, Update.andThen]
    simp only [TransactionNote.outputCommitments] at this
    generalize pushRecords d n.output_commitments s = r at this
    obtain ⟨s', r⟩ := r
    cases this
    rfl

omit S in
theorem pushRecords_keeps {d : ℕ} : ∀ {rcs : List F} {s : LedgerState},
    (pushRecords d rcs s).1.nullifiers = s.nullifiers
  | [], s => rfl
  | rc :: rcs, s => by
    rw [pushRecords, Update.andThen]
    by_cases h : Room d s 1
    · rw [pushRecord_ok h]
      exact pushRecords_keeps
    · rw [pushRecord_full h]

theorem pushNote_keeps {d : ℕ} {t : TransactionNote} {s : LedgerState} {e : Err} (h : (pushNote d t s).2 = .error e) :
    (pushNote d t s).1.nullifiers = s.nullifiers := by
  cases t with
  | transfer n =>
    have := pushRecords_keeps (d := d) (rcs := n.output_commitments) (s := s)
    rw [pushNote, Update.andThen] at h ⊢
    generalize pushRecords d n.output_commitments s = r at h this
    obtain ⟨s1, r⟩ := r
    cases r with
    | ok u => simp at h
    | error e => exact this
  | mint n =>
    rw [pushNote, Update.andThen, Update.andThen] at h ⊢
    by_cases h1 : Room d s 1
    · rw [pushRecord_ok h1] at h ⊢
      dsimp only at h ⊢
      by_cases h2 : Room d { s with leaves := s.leaves ++ [n.chg_comm] } 1
      · rw [pushRecord_ok h2] at h
        simp at h
      · rw [pushRecord_full h2]
    · rw [pushRecord_full h1]
  | freeze n =>
    have := pushRecords_keeps (d := d) (rcs := n.output_commitments) (s := s)
    rw [pushNote, Update.andThen] at h ⊢
    generalize pushRecords d n.output_commitments s = r at h this
    obtain ⟨s1, r⟩ := r
    cases r with
    | ok u => simp at h
    | error e => exact this

/-- what the loop over the notes of a block leaves behind -/
def noted (s : LedgerState) : List TransactionNote → LedgerState
  | [] => s
  | t :: ts => noted { s with leaves := s.leaves ++ t.outputCommitments, nullifiers := t.nullifiers ++ s.nullifiers } ts

theorem noted_eq : ∀ (ts : List TransactionNote) (s : LedgerState),
    (noted s ts).leaves = s.leaves ++ ts.flatMap TransactionNote.outputCommitments ∧ (noted s ts).roots = s.roots ∧
      ∀ x, x ∈ (noted s ts).nullifiers ↔ x ∈ ts.flatMap TransactionNote.nullifiers ∨ x ∈ s.nullifiers
  | [], s => by simp [noted]
  | t :: ts, s => by
    obtain ⟨h1, h2, h3⟩ := noted_eq ts
      { s with leaves := s.leaves ++ t.outputCommitments, nullifiers := t.nullifiers ++ s.nullifiers }
    refine ⟨by rw [noted, h1]; simp, by rw [noted, h2], fun x => ?_⟩
    rw [noted, h3]
    simp only [List.mem_append, List.flatMap_cons]
    tauto

theorem pushNotes_ok {d : ℕ} : ∀ {ts : List TransactionNote} {s : LedgerState},
    Room d s (ts.flatMap TransactionNote.outputCommitments).length → pushNotes d ts s = (noted s ts, .ok ())
  | [], s, _ => rfl
  | t :: ts, s, h => by
    unfold Room at h
    rw [List.flatMap_cons, List.length_append] at h
    rw [pushNotes, Update.andThen, pushNote_ok (by unfold Room; omega)]
    dsimp only
    rw [pushNotes_ok (by unfold Room; simp only [List.length_append]; omega)]
    rfl

theorem pushNotes_full {d : ℕ} : ∀ {ts : List TransactionNote} {s : LedgerState}, Room d s 0 →
    ¬ Room d s (ts.flatMap TransactionNote.outputCommitments).length → (pushNotes d ts s).2 = .error .panic
  | [], s, h, h' => absurd h h'
  | t :: ts, s, h0, h => by
    unfold Room at h
    rw [List.flatMap_cons, List.length_append] at h
    rw [pushNotes, Update.andThen]
    by_cases h1 : Room d s t.outputCommitments.length
    · rw [pushNote_ok h1]
      dsimp only
      unfold Room at h1
      exact pushNotes_full (by unfold Room; simp only [List.length_append]; omega)
        (by unfold Room; simp only [List.length_append]; omega)
    · have := pushNote_full (t := t) h0 h1
      generalize pushNote d t s = r at this
      obtain ⟨s', r⟩ := r
      cases this
      rfl

/-- **Insertion, with room and a fee that fits.** -/
theorem insertBlockInPlace_ok {d : ℕ} {b : MockBlock} {s : LedgerState} {fee : Amount}
    (room : Room d s ((b.txns.flatMap TransactionNote.outputCommitments).length + 1)) (hf : calculateFee b.txns = .ok fee) :
    insertBlockInPlace d b s = (LedgerState.storeRoot d
      { noted s b.txns with
        leaves := (noted s b.txns).leaves ++ [(feeRecord b.proposer_pub_key fee b.fee_blind).commitment] }, .ok ()) := by
  unfold Room at room
  rw [insertBlockInPlace, Update.andThen, pushNotes_ok (by unfold Room; omega)]
  dsimp only
  rw [show b.feeRecordCommitment = .ok (feeRecord b.proposer_pub_key fee b.fee_blind).commitment from
    bind_ok_iff.2 ⟨fee, hf, rfl⟩]
  dsimp only
  rw [Update.andThen, pushRecord_ok (by unfold Room; rw [(noted_eq _ _).1, List.length_append]; omega)]

/-- **Insertion, with a fee that does not fit.** -/
theorem insertBlockInPlace_fee {d : ℕ} {b : MockBlock} {s : LedgerState} {e : Err}
    (room : Room d s (b.txns.flatMap TransactionNote.outputCommitments).length) (hf : calculateFee b.txns = .error e) :
    insertBlockInPlace d b s = (noted s b.txns, .error e) := by
  rw [insertBlockInPlace, Update.andThen, pushNotes_ok room]
  dsimp only
  rw [show b.feeRecordCommitment = .error e by rw [MockBlock.feeRecordCommitment, hf]; rfl]

/-- **Insertion without room.** -/
theorem insertBlockInPlace_full {d : ℕ} {b : MockBlock} {s : LedgerState} (h0 : Room d s 0)
    (full : ¬ Room d s ((b.txns.flatMap TransactionNote.outputCommitments).length + 1)) :
    (insertBlockInPlace d b s).2 ≠ .ok () := by
  unfold Room at full
  rw [insertBlockInPlace, Update.andThen]
  by_cases h1 : Room d s (b.txns.flatMap TransactionNote.outputCommitments).length
  · rw [pushNotes_ok h1]
    dsimp only
    split
    · simp
    · unfold Room at h1
      rw [Update.andThen, pushRecord_full (by unfold Room; rw [(noted_eq _ _).1, List.length_append]; omega)]
      simp
  · have := pushNotes_full h0 h1
    generalize pushNotes d b.txns s = r at this
    obtain ⟨s', r⟩ := r
    cases this
    simp

/-! ### The two models of insertion agree -/

omit S in
/-- the pure function succeeds exactly when the update does, with the same ledger -/
def Agrees (f : LedgerState → Res LedgerState) (u : Update) : Prop := ∀ s s', f s = .ok s' ↔ u s = (s', .ok ())

omit S in
theorem Agrees.bind {f g : LedgerState → Res LedgerState} {u v : Update} (h1 : Agrees f u) (h2 : Agrees g v) :
    Agrees (fun s => f s >>= g) (u.andThen v) := by
  intro s s'
  show (f s >>= g) = _ ↔ _
  rw [bind_ok_iff, Update.andThen]
  constructor
  · rintro ⟨s1, e1, e2⟩
    rw [(h1 _ _).1 e1]
    exact (h2 _ _).1 e2
  · intro h
    generalize hr : u s = r at h
    obtain ⟨s1, r⟩ := r
    cases r with
    | error e => simp at h
    | ok x => exact ⟨s1, (h1 _ _).2 hr, (h2 _ _).2 h⟩

omit S in
theorem agrees_record (d : ℕ) (rc : F) : Agrees (fun s => s.insertRecord d rc) (pushRecord d rc) := by
  intro s s'
  dsimp only
  unfold LedgerState.insertRecord pushRecord
  split <;> simp

omit S in
theorem agrees_pure (g : LedgerState → LedgerState) : Agrees (fun s => .ok (g s)) (fun s => (g s, .ok ())) := by
  intro s s'
  simp

omit S in
theorem agrees_records (d : ℕ) : ∀ rcs : List F, Agrees (fun s => s.insertRecords d rcs) (pushRecords d rcs)
  | [] => agrees_pure id
  | rc :: rcs => (agrees_record d rc).bind (agrees_records d rcs)

theorem agrees_note (d : ℕ) (t : TransactionNote) : Agrees (fun s => s.insertNote d t) (pushNote d t) := by
  cases t with
  | transfer n => exact (agrees_records d n.output_commitments).bind (agrees_pure _)
  | mint n =>
    have := ((agrees_record d n.chg_comm).bind (agrees_record d n.mint_comm)).bind
      (agrees_pure (fun s => s.insertNullifiers [n.input_nullifier]))
    intro s s'
    rw [pushNote, ← this s s']
    simp only [LedgerState.insertNote, bind_ok_iff]
    constructor
    · rintro ⟨s1, h1, s2, h2, h3⟩; exact ⟨s2, ⟨s1, h1, h2⟩, h3⟩
    · rintro ⟨s2, ⟨s1, h1, h2⟩, h3⟩; exact ⟨s1, h1, s2, h2, h3⟩
  | freeze n => exact (agrees_records d n.output_commitments).bind (agrees_pure _)

theorem agrees_notes (d : ℕ) : ∀ ts : List TransactionNote, Agrees (fun s => s.insertNotes d ts) (pushNotes d ts)
  | [] => agrees_pure id
  | t :: ts => (agrees_note d t).bind (agrees_notes d ts)

/-- **Both models of `insert_block` agree.** -/
theorem agrees_block (d : ℕ) (b : MockBlock) : Agrees (fun s => s.insertBlock d b) (insertBlockInPlace d b) := by
  refine (agrees_notes d b.txns).bind (fun s s' => ?_)
  cases hf : b.feeRecordCommitment with
  | error e => simp [bind, Except.bind]
  | ok rc => exact ((agrees_record d rc).bind (agrees_pure (LedgerState.storeRoot d))) s s'

end Cap
