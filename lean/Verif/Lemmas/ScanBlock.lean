/-
What the scan of a block does to the reference wallet.
-/
import Verif.Lemmas.Scan

namespace Cap

open Spec

variable [E : CapEnv]

omit E in
theorem addU64_ok {b : Build} {x : U64} {n : ℕ} (h : x.val + n < 2 ^ 64) : addU64 b x n = .ok ⟨x.val + n, h⟩ := by
  unfold addU64
  rw [dif_pos h]

omit E in
theorem u64_eq {a b : U64} (h : a.val = b.val) : a = b := Fin.ext h

variable [S : CapExt]

/-- the outputs of a transaction that have memos -/
theorem Wallet.scanOutputs_spec (b : Build) (off : U64) : ∀ (l : List (F × E.AeadCt)) (p : ℕ) {w : Wallet}, w.Ok →
    off.val + 1 + p + l.length < 2 ^ 64 →
    ∃ w', Wallet.scanOutputs b off p l w =
        .ok (w', l.filterMap (fun y => (ReceiverMemo.decrypt y.2 w.keypair y.1 []).toOption)) ∧
      w'.Ok ∧ w.SameRest w' ∧ w'.changes = w.changes ∧ (∀ x, w.Holds x → w'.Holds x) ∧
      (∀ x, w'.Holds x → w.Holds x ∨ (x.1.freeze_flag = .unfrozen ∧ ∃ j rc c, l[j]? = some (rc, c) ∧
        ReceiverMemo.decrypt c w.keypair rc [] = .ok x.1 ∧ x.2.val = off.val + 1 + (p + j))) ∧
      (∀ x : RecordOpening × U64, x.1.freeze_flag = .unfrozen → ∀ j rc c, l[j]? = some (rc, c) →
        ReceiverMemo.decrypt c w.keypair rc [] = .ok x.1 → x.2.val = off.val + 1 + (p + j) → w'.Holds x)
  | [], p, w, h, _ => ⟨w, rfl, h, ⟨rfl, rfl⟩, rfl, fun _ h => h, fun _ h => .inl h, fun _ _ j _ _ hj => by simp at hj⟩
  | (rc, c) :: rest, p, w, h, hb => by
    rw [List.length_cons] at hb
    cases hd : ReceiverMemo.decrypt c w.keypair rc [] with
    | error e =>
      obtain ⟨w', h1, h2, h3, h4, h5, h6, h7⟩ := Wallet.scanOutputs_spec b off rest (p + 1) h (by omega)
      refine ⟨w', ?_, h2, h3, h4, h5, fun x hx => ?_, fun x hf j rc' c' hj hdec hp => ?_⟩
      · rw [Wallet.scanOutputs, hd]
        simp only [List.filterMap_cons, hd]
        exact h1
      · refine (h6 x hx).imp id ?_
        rintro ⟨hf, j, rc', c', hj, hdec, hp⟩
        exact ⟨hf, j + 1, rc', c', hj, hdec, by omega⟩
      · cases j with
        | zero =>
          rw [List.getElem?_cons_zero, Option.some.injEq] at hj
          cases hj
          rw [hd] at hdec
          cases hdec
        | succ j => exact h7 x hf j rc' c' hj hdec (by omega)
    | ok ro =>
      have u1 : off.val + 1 < 2 ^ 64 := by omega
      have u2 : (off.val + 1) + p < 2 ^ 64 := by omega
      obtain ⟨w1, a1, a2, a3, a4, a5⟩ : ∃ w1 : Wallet, w.addReceived b ro off p = .ok w1 ∧ w1.Ok ∧ w.SameRest w1 ∧ w1.changes = w.changes ∧
          ∀ x, w1.Holds x ↔ w.Holds x ∨ (ro.freeze_flag = .unfrozen ∧ x.1 = ro ∧ x.2.val = off.val + 1 + p) := by
        unfold Wallet.addReceived
        cases hfl : ro.freeze_flag with
        | unfrozen =>
          refine ⟨w.addRecordOpening ro ⟨off.val + 1 + p, u2⟩, ?_, h.add _ _, ⟨rfl, rfl⟩, rfl, fun x => ?_⟩
          · rw [addU64_ok u1]
            show (do let uid ← addU64 b ⟨off.val + 1, u1⟩ p; Except.ok (w.addRecordOpening ro uid)) = _
            rw [addU64_ok (x := ⟨off.val + 1, u1⟩) u2]
            rfl
          · rw [Wallet.holds_add]
            constructor
            · rintro (rfl | hx)
              · exact .inr ⟨rfl, rfl, rfl⟩
              · exact .inl hx
            · rintro (hx | ⟨-, h1, h2⟩)
              · exact .inr hx
              · exact .inl (Prod.ext h1 (u64_eq h2))
        | frozen =>
          refine ⟨w, rfl, h, ⟨rfl, rfl⟩, rfl, fun x => ?_⟩
          simp
      obtain ⟨w', h1, h2, h3, h4, h5, h6, h7⟩ := Wallet.scanOutputs_spec b off rest (p + 1) a2 (by omega)
      refine ⟨w', ?_, h2, a3.trans h3, h4.trans a4, fun x hx => h5 x ((a5 x).2 (.inl hx)), fun x hx => ?_,
        fun x hf j rc' c' hj hdec hp => ?_⟩
      · rw [Wallet.scanOutputs, hd]
        dsimp only
        rw [a1]
        show (do let (w, recv) ← Wallet.scanOutputs b off (p + 1) rest w1; Except.ok (w, ro :: recv)) = _
        rw [h1, a3.keypair]
        simp only [List.filterMap_cons, hd]
        rfl
      · rcases h6 x hx with hx | ⟨hf, j, rc', c', hj, hdec, hp⟩
        · rcases (a5 x).1 hx with hx | ⟨hf, hr, hp⟩
          · exact .inl hx
          · exact .inr ⟨by rw [hr]; exact hf, 0, rc, c, rfl, by rw [hr]; exact hd, by omega⟩
        · exact .inr ⟨hf, j + 1, rc', c', hj, by rw [← a3.keypair]; exact hdec, by omega⟩
      · cases j with
        | zero =>
          rw [List.getElem?_cons_zero, Option.some.injEq] at hj
          cases hj
          rw [hd] at hdec
          cases hdec
          exact h5 x ((a5 x).2 (.inr ⟨hf, rfl, by omega⟩))
        | succ j => exact h7 x hf j rc' c' hj (by rw [a3.keypair]; exact hdec) (by omega)

/-- a memo of the transaction opens to this record -/
def MemoAt (k : UserKeyPair) (t : TransactionNote) (memos : List E.AeadCt) (pos : ℕ) (x : RecordOpening × U64) : Prop :=
  x.1.freeze_flag = .unfrozen ∧ ∃ j rc c, t.outputCommitments[j + 1]? = some rc ∧ memos[j]? = some c ∧
    ReceiverMemo.decrypt c k rc [] = .ok x.1 ∧ x.2.val = pos + 1 + j

/-- the record is a change with the first commitment of the transaction -/
def ChangeAt (changes : List RecordOpening) (t : TransactionNote) (pos : ℕ) (x : RecordOpening × U64) : Prop :=
  x.1 ∈ changes ∧ t.outputCommitments[0]? = some x.1.commitment ∧ x.2.val = pos

/-- **The scan of a transaction.** -/
theorem Wallet.scanTxn_spec (b : Build) {w : Wallet} (h : w.Ok) {t : TransactionNote} {memos : List E.AeadCt} {off : U64}
    (len : t.outputCommitments.length = memos.length + 1) (small : off.val + t.outputCommitments.length < 2 ^ 64) :
    ∃ w' recv, w.scanTxn b t memos off = .ok (w', recv) ∧ w'.Ok ∧ w.SameRest w' ∧ (∀ c ∈ w'.changes, c ∈ w.changes) ∧
      (∀ x, w.Holds x → w'.Holds x ∨ w.nullify x ∈ t.nullifiers) ∧
      (∀ x, w'.Holds x → w.Holds x ∨ MemoAt w.keypair t memos off.val x ∨ ChangeAt w.changes t off.val x) ∧
      (∀ x, MemoAt w.keypair t memos off.val x → w'.Holds x ∨ w.nullify x ∈ t.nullifiers) ∧
      (∀ c ∈ w.changes, c ∈ w'.changes ∨ (ChangeAt w.changes t off.val (c, off) ∧
        (w'.Holds (c, off) ∨ w.nullify (c, off) ∈ t.nullifiers))) ∧
      (∀ c ∈ w'.changes, (∀ c' ∈ w.changes, c'.commitment = c.commitment → c' = c) →
        t.outputCommitments[0]? ≠ some c.commitment) ∧
      (∀ C : RecordOpening × U64 → Prop, (∀ x, w.Holds x → C x) → (∀ x, MemoAt w.keypair t memos off.val x → C x) →
        (∀ x, ChangeAt w.changes t off.val x → C x) → (∀ x y, C x → C y → w.nullify x = w.nullify y → x = y) →
        ∀ x, w'.Holds x → w.nullify x ∉ t.nullifiers) ∧
      recv = (t.outputCommitments.tail.zip memos).filterMap
        (fun y => (ReceiverMemo.decrypt y.2 w.keypair y.1 []).toOption) := by
  cases ho : t.outputCommitments with
  | nil => rw [ho] at len; simp at len
  | cons first outs =>
    rw [ho, List.length_cons] at small
    rw [ho, List.length_cons, Nat.add_right_cancel_iff] at len
    obtain ⟨c1, c2, c3, c4, c5, c6, c7⟩ := Wallet.confirmChange_spec h first off
    obtain ⟨w2, s1, s2, s3, s4, s5, s6, s7⟩ := Wallet.scanOutputs_spec b off (outs.zip memos) 0 c1 (by
      rw [List.length_zip, len, Nat.min_self]; omega)
    obtain ⟨w3, m1, m2, m3, m4, m5, m6, m7⟩ := Wallet.markAllSpent_spec (ns := t.nullifiers) s2
    have r2 : w.SameRest w2 := c2.trans s3
    have memo2 : ∀ x, MemoAt w.keypair t memos off.val x → w2.Holds x := by
      rintro x ⟨hf, j, rc, c, hj, hc, hd, hp⟩
      rw [ho, List.getElem?_cons_succ] at hj
      exact s7 x hf j rc c (List.getElem?_zip_eq_some.2 ⟨hj, hc⟩) (by rw [c2.keypair]; exact hd) (by omega)
    have hold2 : ∀ x, w2.Holds x → w.Holds x ∨ MemoAt w.keypair t memos off.val x ∨ ChangeAt w.changes t off.val x := by
      intro x hx
      rcases s6 x hx with hx | ⟨hf, j, rc, c, hj, hd, hp⟩
      · rcases c5 x hx with hx | ⟨h1, h2, h3⟩
        · exact .inl hx
        · exact .inr (.inr ⟨h1, by rw [ho, List.getElem?_cons_zero, h2], by rw [h3]⟩)
      · obtain ⟨h1, h2⟩ := List.getElem?_zip_eq_some.1 hj
        exact .inr (.inl ⟨hf, j, rc, c, by rw [ho, List.getElem?_cons_succ]; exact h1, h2,
          by rw [← c2.keypair]; exact hd, by omega⟩)
    have keep : ∀ x, w2.Holds x → w3.Holds x ∨ w.nullify x ∈ t.nullifiers := by
      intro x hx
      by_cases hn : w.nullify x ∈ t.nullifiers
      · exact .inr hn
      · exact .inl (m6 x hx (by rw [r2.nullify]; exact hn))
    refine ⟨w3, _, ?_, m2, r2.trans m3, fun c hc => ?_, fun x hx => keep x (s5 x (c4 x hx)), fun x hx => hold2 x (m5 x hx),
      fun x hx => keep x (memo2 x hx), fun c hc => ?_, fun c hc hu he => ?_, fun C g1 g2 g3 g4 x hx => ?_, rfl⟩
    · unfold Wallet.scanTxn
      rw [ho]
      dsimp only
      rw [if_neg (by simpa using len), s1]
      show (do let w ← w2.markAllSpent t.nullifiers; Except.ok (w, _)) = _
      rw [m1, c2.keypair]
      rfl
    · rw [m4, s4] at hc
      exact c3 c hc
    · rcases c6 c hc with h1 | ⟨h1, h2⟩
      · left
        rw [m4, s4]
        exact h1
      · exact .inr ⟨⟨hc, by rw [ho, List.getElem?_cons_zero, h1], rfl⟩, keep _ (s5 _ h2)⟩
    · rw [List.getElem?_cons_zero, Option.some.injEq] at he
      rw [m4, s4] at hc
      unfold Wallet.confirmChange at hc
      cases hf : w.changes.find? (fun ro => ro.commitment = first) with
      | none =>
        have := List.find?_eq_none.1 hf c (c3 c (by unfold Wallet.confirmChange; exact hc))
        simp [he] at this
      | some ro =>
        rw [hf] at hc
        have h1 : ro.commitment = first := by simpa using List.find?_some hf
        obtain ⟨h2, -⟩ := mem_setRemove.1 hc
        exact h2 (hu ro (List.mem_of_find?_eq_some hf) (h1.trans he)).symm
    · rw [← r2.nullify]
      refine m7 (fun a b' ha hb hab => ?_) x hx
      rw [r2.nullify, r2.nullify] at hab
      have hC : ∀ x, w2.Holds x → C x := fun x hx => by
        rcases hold2 x hx with h | h | h
        · exact g1 x h
        · exact g2 x h
        · exact g3 x h
      exact g4 a b' (hC a ha) (hC b' hb) hab

theorem outputs_cons (t : TransactionNote × List E.AeadCt) (l : List (TransactionNote × List E.AeadCt)) :
    outputs (t :: l) = t.1.outputCommitments.length + outputs l := by
  simp [outputs]

theorem outputLen_eq (t : TransactionNote) : t.outputLen = t.outputCommitments.length := by
  cases t <;> rfl

/-- the transaction is in the list, `n` outputs after its beginning -/
def InList (txns : List (TransactionNote × List E.AeadCt)) (t : TransactionNote) (memos : List E.AeadCt) (n : ℕ) : Prop :=
  ∃ earlier later, txns = earlier ++ (t, memos) :: later ∧ n = outputs earlier

theorem InList.head {t : TransactionNote} {memos : List E.AeadCt} {l : List (TransactionNote × List E.AeadCt)} :
    InList ((t, memos) :: l) t memos 0 := ⟨[], l, rfl, rfl⟩

theorem InList.tail {t : TransactionNote} {memos : List E.AeadCt} {n : ℕ} {a : TransactionNote × List E.AeadCt}
    {l : List (TransactionNote × List E.AeadCt)} (h : InList l t memos n) :
    InList (a :: l) t memos (a.1.outputCommitments.length + n) := by
  obtain ⟨e, la, rfl, rfl⟩ := h
  exact ⟨a :: e, la, rfl, (outputs_cons _ _).symm⟩

theorem InList.cases {t : TransactionNote} {memos : List E.AeadCt} {n : ℕ} {a : TransactionNote × List E.AeadCt}
    {l : List (TransactionNote × List E.AeadCt)} (h : InList (a :: l) t memos n) :
    (a = (t, memos) ∧ n = 0) ∨ ∃ m, n = a.1.outputCommitments.length + m ∧ InList l t memos m := by
  obtain ⟨e, la, he, rfl⟩ := h
  cases e with
  | nil =>
    rw [List.nil_append, List.cons.injEq] at he
    exact .inl ⟨he.1, rfl⟩
  | cons a' e =>
    rw [List.cons_append, List.cons.injEq] at he
    obtain ⟨rfl, rfl⟩ := he
    exact .inr ⟨outputs e, outputs_cons _ _, e, la, rfl, rfl⟩

theorem InList.mem {t : TransactionNote} {memos : List E.AeadCt} {n : ℕ} {l : List (TransactionNote × List E.AeadCt)}
    (h : InList l t memos n) : (t, memos) ∈ l := by
  obtain ⟨e, la, rfl, -⟩ := h
  simp

theorem InList.of_mem : ∀ {l : List (TransactionNote × List E.AeadCt)} {a : TransactionNote × List E.AeadCt}, a ∈ l →
    ∃ n, InList l a.1 a.2 n
  | b :: l, a, h => by
    rcases List.mem_cons.1 h with rfl | h
    · exact ⟨0, .head⟩
    · obtain ⟨n, hn⟩ := InList.of_mem h
      exact ⟨_, hn.tail⟩

theorem InList.le {t : TransactionNote} {memos : List E.AeadCt} {n : ℕ} {l : List (TransactionNote × List E.AeadCt)}
    (h : InList l t memos n) : n + t.outputCommitments.length ≤ outputs l := by
  obtain ⟨e, la, rfl, rfl⟩ := h
  simp only [outputs, List.map_append, List.map_cons, List.sum_append, List.sum_cons]
  omega

/-- **The scan of the transactions of a block.** -/
theorem Wallet.scanTxns_spec (b : Build) : ∀ (txns : List (TransactionNote × List E.AeadCt)) {w : Wallet}, w.Ok →
    ∀ {off : U64}, off.val + outputs txns < 2 ^ 64 →
    (∀ t ∈ txns, t.1.outputCommitments.length = t.2.length + 1) →
    ∃ w' recv, w.scanTxns b txns off = .ok (w', recv) ∧ w'.Ok ∧ w.SameRest w' ∧ (∀ c ∈ w'.changes, c ∈ w.changes) ∧
      (∀ x, w.Holds x → w'.Holds x ∨ ∃ t ∈ txns, w.nullify x ∈ t.1.nullifiers) ∧
      (∀ x, w'.Holds x → w.Holds x ∨ ∃ t memos n, InList txns t memos n ∧
        (MemoAt w.keypair t memos (off.val + n) x ∨ ChangeAt w.changes t (off.val + n) x)) ∧
      (∀ x t memos n, InList txns t memos n → MemoAt w.keypair t memos (off.val + n) x →
        w'.Holds x ∨ ∃ t ∈ txns, w.nullify x ∈ t.1.nullifiers) ∧
      (∀ c ∈ w.changes, c ∈ w'.changes ∨ ∃ t memos n uid, InList txns t memos n ∧
        ChangeAt w.changes t (off.val + n) (c, uid) ∧ (w'.Holds (c, uid) ∨ ∃ t ∈ txns, w.nullify (c, uid) ∈ t.1.nullifiers)) ∧
      (∀ c ∈ w'.changes, (∀ c' ∈ w.changes, c'.commitment = c.commitment → c' = c) →
        ∀ t ∈ txns, t.1.outputCommitments[0]? ≠ some c.commitment) ∧
      (∀ C : RecordOpening × U64 → Prop, (∀ x, w.Holds x → C x) →
        (∀ x t memos n, InList txns t memos n → MemoAt w.keypair t memos (off.val + n) x → C x) →
        (∀ x t memos n, InList txns t memos n → ChangeAt w.changes t (off.val + n) x → C x) →
        (∀ x y, C x → C y → w.nullify x = w.nullify y → x = y) →
        (∀ x, C x → ∀ t memos n, InList txns t memos n → off.val + n + t.outputCommitments.length ≤ x.2.val →
          w.nullify x ∉ t.nullifiers) →
        ∀ x, w'.Holds x → ∀ t ∈ txns, w.nullify x ∉ t.1.nullifiers)
  | [], w, h, off, _, _ => ⟨w, [], rfl, h, ⟨rfl, rfl⟩, fun _ h => h, fun _ h => .inl h, fun _ h => .inl h,
      fun _ _ _ _ hi => (nomatch hi.mem), fun _ h => .inl h, fun _ _ _ _ h => (nomatch h),
      fun _ _ _ _ _ _ _ _ _ h => (nomatch h)⟩
  | (t, memos) :: rest, w, h, off, small, lens => by
    rw [outputs_cons] at small
    dsimp only at small
    have hs : off.val + t.outputCommitments.length < 2 ^ 64 := by omega
    obtain ⟨w1, recv1, a1, a2, a3, a4, a5, a6, a7, a8, a9, a10, -⟩ := Wallet.scanTxn_spec b h
      (lens (t, memos) List.mem_cons_self) hs
    let off1 : U64 := ⟨off.val + t.outputCommitments.length, hs⟩
    obtain ⟨w2, recv2, e1, e2, e3, e4, e5, e6, e7, e8, e9, e10⟩ := Wallet.scanTxns_spec b rest a2 (off := off1)
      (by show off.val + t.outputCommitments.length + outputs rest < 2 ^ 64; omega)
      (fun t ht => lens t (List.mem_cons_of_mem _ ht))
    have ofs : ∀ n, off1.val + n = off.val + (t.outputCommitments.length + n) := fun n => Nat.add_assoc _ _ _
    have later : ∀ x, w1.Holds x → w2.Holds x ∨ ∃ t' ∈ (t, memos) :: rest, w.nullify x ∈ t'.1.nullifiers := by
      intro x hx
      refine (e5 x hx).imp id ?_
      rintro ⟨t', ht', hn⟩
      exact ⟨t', List.mem_cons_of_mem _ ht', by rw [← a3.nullify]; exact hn⟩
    refine ⟨w2, recv1 ++ recv2, ?_, e2, a3.trans e3, fun c hc => a4 c (e4 c hc), fun x hx => ?_, fun x hx => ?_,
      fun x t' m' n hi hm => ?_, fun c hc => ?_, fun c hc hu t' ht' => ?_, fun C g1 g2 g3 g4 g5 x hx t' ht' => ?_⟩
    · rw [Wallet.scanTxns, a1]
      show (do
        let off ← addU64 b off t.outputLen
        let (w, more) ← w1.scanTxns b rest off
        Except.ok (w, recv1 ++ more)) = _
      rw [outputLen_eq, addU64_ok hs]
      show (do
        let (w, more) ← w1.scanTxns b rest off1
        Except.ok (w, recv1 ++ more)) = _
      rw [e1]
      rfl
    · rcases a5 x hx with h1 | h1
      · exact later x h1
      · exact .inr ⟨_, List.mem_cons_self, h1⟩
    · rcases e6 x hx with h1 | ⟨t', m', n, hi, h1⟩
      · rcases a6 x h1 with h1 | h1
        · exact .inl h1
        · exact .inr ⟨t, memos, 0, .head, h1⟩
      · refine .inr ⟨t', m', _, hi.tail, ?_⟩
        rw [← ofs]
        refine h1.imp (fun h1 => by rwa [a3.keypair] at h1) (fun h1 => ⟨a4 _ h1.1, h1.2⟩)
    · rcases hi.cases with ⟨he, rfl⟩ | ⟨m, rfl, hi'⟩
      · cases he
        rcases a7 x hm with h1 | h1
        · exact later x h1
        · exact .inr ⟨_, List.mem_cons_self, h1⟩
      · rw [← ofs] at hm
        refine (e7 x t' m' m hi' (by rw [a3.keypair]; exact hm)).imp id ?_
        rintro ⟨t'', ht'', hn⟩
        exact ⟨t'', List.mem_cons_of_mem _ ht'', by rw [← a3.nullify]; exact hn⟩
    · rcases a8 c hc with h1 | ⟨h1, h2⟩
      · rcases e8 c h1 with h2 | ⟨t', m', n, uid, hi, h2, h3⟩
        · exact .inl h2
        · refine .inr ⟨t', m', _, uid, hi.tail, ?_, h3.imp id ?_⟩
          · rw [← ofs]
            exact ⟨hc, h2.2⟩
          · rintro ⟨t'', ht'', hn⟩
            exact ⟨t'', List.mem_cons_of_mem _ ht'', by rw [← a3.nullify]; exact hn⟩
      · refine .inr ⟨t, memos, 0, off, .head, h1, ?_⟩
        rcases h2 with h2 | h2
        · exact later _ h2
        · exact .inr ⟨_, List.mem_cons_self, h2⟩
    · rcases List.mem_cons.1 ht' with rfl | ht'
      · exact a9 c (e4 c hc) hu
      · exact e9 c hc (fun c' hc' => hu c' (a4 c' hc')) t' ht'
    · have fresh1 := a10 C g1 (fun x hm => g2 x t memos 0 .head hm) (fun x hm => g3 x t memos 0 .head hm) g4
      have C1 : ∀ x, w1.Holds x → C x := fun x hx => by
        rcases a6 x hx with h1 | h1 | h1
        · exact g1 x h1
        · exact g2 x t memos 0 .head h1
        · exact g3 x t memos 0 .head h1
      have g2' : ∀ x t memos n, InList rest t memos n → MemoAt w1.keypair t memos (off1.val + n) x → C x := by
        intro x t' m' n hi hm
        rw [ofs, a3.keypair] at hm
        exact g2 x t' m' _ hi.tail hm
      have g3' : ∀ x t memos n, InList rest t memos n → ChangeAt w1.changes t (off1.val + n) x → C x := by
        intro x t' m' n hi hm
        rw [ofs] at hm
        exact g3 x t' m' _ hi.tail ⟨a4 _ hm.1, hm.2⟩
      rcases List.mem_cons.1 ht' with rfl | ht'
      · rcases e6 x hx with h1 | ⟨t', m', n, hi, h1⟩
        · exact fresh1 x h1
        · have hC : C x := h1.elim (fun h1 => g2' x t' m' n hi h1) (fun h1 => g3' x t' m' n hi h1)
          refine g5 x hC t memos 0 .head ?_
          have hp : off1.val + n ≤ x.2.val := by
            rcases h1 with ⟨-, j, rc, c, -, -, -, hp⟩ | ⟨-, -, hp⟩ <;> omega
          have := ofs n
          omega
      · rw [← a3.nullify]
        refine e10 C C1 g2' g3' (fun x y hx hy he => g4 x y hx hy (by rwa [a3.nullify, a3.nullify] at he)) ?_ x hx t' ht'
        intro x hx t' m' n hi hp
        rw [a3.nullify]
        rw [ofs] at hp
        exact g5 x hx t' m' _ hi.tail hp

end Cap
