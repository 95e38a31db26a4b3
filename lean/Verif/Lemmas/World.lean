/-
The reference ledger together with a wallet that follows it: invariants.
-/
import Verif.Lemmas.ScanBlock
import Verif.Lemmas.Ledger
import Verif.Props.C35

namespace Cap

open Spec

variable [E : CapEnv] [S : CapExt]

/-! ### Positions -/

theorem records_append (h : List Seen) (e : Seen) : records (h ++ [e]) = records h + e.size := by
  simp [records]

theorem Spec.At.mono {h : List Seen} {t : TransactionNote} {memos : List E.AeadCt} {pos : ℕ} (a : At h t memos pos)
    (e : Seen) : At (h ++ [e]) t memos pos := by
  obtain ⟨before, txns, blind, who, time, after, earlier, later, rfl, h2, h3⟩ := a
  exact ⟨before, txns, blind, who, time, after ++ [e], earlier, later, by simp, h2, h3⟩

theorem Spec.At.last {h : List Seen} {txns : List (TransactionNote × List E.AeadCt)} {blind : F} {who : UserPubKey}
    {time : U64} {t : TransactionNote} {memos : List E.AeadCt} {n : ℕ} (hi : InList txns t memos n) :
    At (h ++ [.block txns blind who time]) t memos (records h + n) := by
  obtain ⟨e, la, h1, rfl⟩ := hi
  exact ⟨h, txns, blind, who, time, [], e, la, rfl, h1, rfl⟩

theorem append_cons_cases {α : Type} {h before after : List α} {e x : α} (heq : h ++ [e] = before ++ x :: after) :
    (after = [] ∧ e = x ∧ h = before) ∨ ∃ after', after = after' ++ [e] ∧ h = before ++ x :: after' := by
  rcases List.eq_nil_or_concat after with rfl | ⟨after', y, rfl⟩
  · obtain ⟨h1, h2⟩ := List.append_inj' heq rfl
    exact .inl ⟨rfl, by simpa using h2, h1⟩
  · rw [List.concat_eq_append] at heq ⊢
    rw [← List.cons_append, ← List.append_assoc] at heq
    obtain ⟨h1, h2⟩ := List.append_inj' heq rfl
    have : e = y := by simpa using h2
    subst this
    exact .inr ⟨after', rfl, h1⟩

theorem Spec.At.cases {h : List Seen} {e : Seen} {t : TransactionNote} {memos : List E.AeadCt} {pos : ℕ}
    (a : At (h ++ [e]) t memos pos) : At h t memos pos ∨
      ∃ txns blind who time n, e = .block txns blind who time ∧ InList txns t memos n ∧ pos = records h + n := by
  obtain ⟨before, txns, blind, who, time, after, earlier, later, h1, h2, h3⟩ := a
  rcases append_cons_cases h1 with ⟨-, h4, rfl⟩ | ⟨after', -, h5⟩
  · exact .inr ⟨txns, blind, who, time, outputs earlier, h4, ⟨earlier, later, h2, rfl⟩, h3⟩
  · exact .inl ⟨before, txns, blind, who, time, after', earlier, later, h5, h2, h3⟩

theorem Spec.At.not_nil {t : TransactionNote} {memos : List E.AeadCt} {pos : ℕ} (a : At [] t memos pos) : False := by
  obtain ⟨before, txns, blind, who, time, after, earlier, later, h1, -⟩ := a
  simp at h1

theorem Spec.Received.mono {k : UserKeyPair} {h : List Seen} {x : RecordOpening × U64} (r : Received k h x) (e : Seen) :
    Received k (h ++ [e]) x := by
  cases r with
  | told mem => exact .told (List.mem_append_left _ mem)
  | memo a o m op p => exact .memo (a.mono e) o m op p
  | change wt a o p => exact .change (List.mem_append_left _ wt) (a.mono e) o p

/-- the commitments of a transaction of a block -/
theorem flatMap_at : ∀ {txns : List (TransactionNote × List E.AeadCt)} {t : TransactionNote} {memos : List E.AeadCt} {n i : ℕ}
    {rc : F}, InList txns t memos n → t.outputCommitments[i]? = some rc →
    ((txns.map (·.1)).flatMap TransactionNote.outputCommitments)[n + i]? = some rc
  | [], t, memos, n, i, rc, hi, _ => (nomatch hi.mem)
  | a :: l, t, memos, n, i, rc, hi, hrc => by
    rw [List.map_cons, List.flatMap_cons]
    rcases hi.cases with ⟨rfl, rfl⟩ | ⟨m, rfl, hi'⟩
    · rw [Nat.zero_add, List.getElem?_append_left (List.getElem?_eq_some_iff.1 hrc).1]
      exact hrc
    · rw [List.getElem?_append_right (by omega)]
      have : a.1.outputCommitments.length + m + i - a.1.outputCommitments.length = m + i := by omega
      rw [this]
      exact flatMap_at hi' hrc

theorem outputs_length (txns : List (TransactionNote × List E.AeadCt)) :
    ((txns.map (·.1)).flatMap TransactionNote.outputCommitments).length = outputs txns := by
  simp only [outputs, List.flatMap_map, List.length_flatMap]

/-- a scan that does not panic had a memo for every output but the first -/
theorem Wallet.scanTxns_lens {b : Build} : ∀ {txns : List (TransactionNote × List E.AeadCt)} {w : Wallet} {off : U64}
    {r : Wallet × List RecordOpening}, w.scanTxns b txns off = .ok r →
    ∀ t ∈ txns, t.1.outputCommitments.length = t.2.length + 1
  | [], _, _, _, _ => fun _ h => nomatch h
  | (t, memos) :: rest, w, off, r, h => by
    rw [Wallet.scanTxns, bind_ok_iff] at h
    obtain ⟨⟨w1, recv⟩, h1, h⟩ := h
    rw [bind_ok_iff] at h
    obtain ⟨off1, -, h⟩ := h
    rw [bind_ok_iff] at h
    obtain ⟨⟨w2, more⟩, h2, -⟩ := h
    intro a ha
    rcases List.mem_cons.1 ha with rfl | ha
    · unfold Wallet.scanTxn at h1
      cases ho : t.outputCommitments with
      | nil => rw [ho] at h1; cases h1
      | cons f outs =>
        rw [ho] at h1
        dsimp only at h1
        split at h1
        · cases h1
        · next hl =>
          rw [List.length_cons]
          exact congrArg (· + 1) (not_not.1 hl)
    · exact Wallet.scanTxns_lens h2 a ha

omit S in
theorem zip_map_self {α β : Type} (l : List (α × β)) : (l.map (·.1)).zip (l.map (·.2)) = l := by
  induction l with
  | nil => rfl
  | cons a l ih => simp [ih]

/-! ### The invariant -/

/-- the change has arrived: it is held, or spent by now -/
def Confirmed (k : UserKeyPair) (h : List Seen) (s : LedgerState) (w : Wallet) (c : RecordOpening) : Prop :=
  ∃ t memos pos uid, At h t memos pos ∧ t.outputCommitments[0]? = some c.commitment ∧ (uid : U64).val = pos ∧
    (w.Holds (c, uid) ∨ ownNullifier k (c, uid) ∈ s.nullifiers)

/-- no transaction of these events starts with this commitment -/
def NotYet (after : List Seen) (rc : F) : Prop :=
  ∀ txns blind who time, .block txns blind who time ∈ after → ∀ t ∈ txns, t.1.outputCommitments[0]? ≠ some rc

structure WorldOk (d : Fin 256) (k : UserKeyPair) (h : List Seen) (s : LedgerState) (w : Wallet) : Prop where
  ok : w.Ok
  key : w.keypair = k
  size : s.leaves.length = records h
  small : s.leaves.length < 2 ^ 64
  room : s.leaves.length ≤ 3 ^ d.val
  root : treeRoot d.val s.leaves ∈ s.roots
  nulls : ∀ x, x ∈ s.nullifiers ↔ ∃ t memos pos, At h t memos pos ∧ x ∈ t.nullifiers
  held : ∀ x, w.Holds x → Received k h x ∧ x.1.pub_key = k.pubKey ∧ x.1.freeze_flag = .unfrozen ∧
    s.leaves[x.2.val]? = some x.1.commitment
  changes : ∀ c ∈ w.changes, .expecting c ∈ h ∧ c.pub_key = k.pubKey ∧ c.freeze_flag = .unfrozen
  told : ∀ ro uid, .told ro uid ∈ h → w.Holds (ro, uid) ∨ ownNullifier k (ro, uid) ∈ s.nullifiers
  memo : ∀ t memos pos x, At h t memos pos → MemoAt k t memos pos x → w.Holds x ∨ ownNullifier k x ∈ s.nullifiers
  change : ∀ c before after, h = before ++ .expecting c :: after →
    (∀ c', .expecting c' ∈ h → c'.commitment = c.commitment → c' = c) →
    (c ∈ w.changes ∧ NotYet after c.commitment) ∨ Confirmed k h s w c

theorem WorldOk.nullify {d : Fin 256} {k : UserKeyPair} {h : List Seen} {s : LedgerState} {w : Wallet}
    (i : WorldOk d k h s w) (x : RecordOpening × U64) : w.nullify x = ownNullifier k x := by
  unfold Wallet.nullify ownNullifier
  rw [i.key]

omit S in
theorem Confirmed.step [S : CapExt] {k : UserKeyPair} {h : List Seen} {s s' : LedgerState} {w w' : Wallet} {c : RecordOpening} (e : Seen)
    (hc : Confirmed k h s w c) (keep : ∀ x, w.Holds x → w'.Holds x ∨ ownNullifier k x ∈ s'.nullifiers)
    (nulls : ∀ x ∈ s.nullifiers, x ∈ s'.nullifiers) : Confirmed k (h ++ [e]) s' w' c := by
  obtain ⟨t, memos, pos, uid, h1, h2, h3, h4⟩ := hc
  exact ⟨t, memos, pos, uid, h1.mono e, h2, h3, h4.elim (fun h => keep _ h) (fun h => .inr (nulls _ h))⟩

theorem At_event {h : List Seen} {e : Seen} (hb : ∀ txns blind who time, e ≠ .block txns blind who time)
    {t : TransactionNote} {memos : List E.AeadCt} {pos : ℕ} : At (h ++ [e]) t memos pos ↔ At h t memos pos := by
  refine ⟨fun a => a.cases.elim id ?_, fun a => a.mono e⟩
  rintro ⟨txns, blind, who, time, n, h1, -⟩
  exact absurd h1 (hb _ _ _ _)

/-- an event without transactions -/
theorem WorldOk.plain {d : Fin 256} {k : UserKeyPair} {h : List Seen} {s s' : LedgerState} {w w' : Wallet}
    (i : WorldOk d k h s w) (e : Seen) (hb : ∀ txns blind who time, e ≠ .block txns blind who time)
    (ok : w'.Ok) (key : w'.keypair = k) (size : s'.leaves.length = records (h ++ [e])) (small : s'.leaves.length < 2 ^ 64)
    (room : s'.leaves.length ≤ 3 ^ d.val)
    (root : treeRoot d.val s'.leaves ∈ s'.roots)
    (leaves : ∀ (j : ℕ) c, s.leaves[j]? = some c → s'.leaves[j]? = some c)
    (nulls : s'.nullifiers = s.nullifiers)
    (mono : ∀ x, w.Holds x → w'.Holds x)
    (new : ∀ x, w'.Holds x → w.Holds x ∨ (e = .told x.1 x.2 ∧ x.1.pub_key = k.pubKey ∧ x.1.freeze_flag = .unfrozen ∧
      s'.leaves[x.2.val]? = some x.1.commitment))
    (told : ∀ ro uid, e = .told ro uid → w'.Holds (ro, uid))
    (changes : ∀ c, c ∈ w'.changes ↔ c ∈ w.changes ∨ e = .expecting c)
    (fine : ∀ c, e = .expecting c → c.pub_key = k.pubKey ∧ c.freeze_flag = .unfrozen) :
    WorldOk d k (h ++ [e]) s' w' := by
  have keep : ∀ x, w.Holds x → w'.Holds x ∨ ownNullifier k x ∈ s'.nullifiers := fun x hx => .inl (mono x hx)
  have keepN : ∀ x ∈ s.nullifiers, x ∈ s'.nullifiers := fun x hx => by rw [nulls]; exact hx
  refine ⟨ok, key, size, small, room, root, fun x => ?_, fun x hx => ?_, fun c hc => ?_, fun ro uid hm => ?_,
    fun t memos pos x a hm => ?_, fun c before after heq tw => ?_⟩
  · rw [nulls, i.nulls]
    simp only [At_event hb]
  · rcases new x hx with h1 | ⟨rfl, h2⟩
    · obtain ⟨a1, a2, a3, a4⟩ := i.held x h1
      exact ⟨a1.mono e, a2, a3, leaves _ _ a4⟩
    · exact ⟨.told (List.mem_append_right _ List.mem_cons_self), h2⟩
  · rcases (changes c).1 hc with h1 | rfl
    · obtain ⟨a1, a2⟩ := i.changes c h1
      exact ⟨List.mem_append_left _ a1, a2⟩
    · exact ⟨List.mem_append_right _ List.mem_cons_self, fine c rfl⟩
  · rcases List.mem_append.1 hm with h1 | h1
    · exact (i.told ro uid h1).elim (keep _) (fun h => .inr (keepN _ h))
    · exact .inl (told ro uid (List.mem_singleton.1 h1).symm)
  · exact (i.memo t memos pos x ((At_event hb).1 a) hm).elim (keep _) (fun h => .inr (keepN _ h))
  · rcases append_cons_cases heq with ⟨rfl, rfl, rfl⟩ | ⟨after', rfl, h5⟩
    · exact .inl ⟨(changes c).2 (.inr rfl), fun _ _ _ _ hm => (nomatch hm)⟩
    · rcases i.change c before after' h5 (fun c' hc' => tw c' (List.mem_append_left _ hc')) with ⟨h6, h7⟩ | h6
      · refine .inl ⟨(changes c).2 (.inl h6), fun txns blind who time hm => ?_⟩
        rcases List.mem_append.1 hm with hm | hm
        · exact h7 _ _ _ _ hm
        · exact absurd (List.mem_singleton.1 hm).symm (hb _ _ _ _)
      · exact .inr (h6.step e keep keepN)

theorem WorldOk.block {d : Fin 256} {b : Build} {k : UserKeyPair} {h : List Seen} {s s' : LedgerState} {w w' : Wallet}
    (i : WorldOk d k h s w) {txns : List (TransactionNote × List E.AeadCt)} {blind : F} {who : UserPubKey} {time : U64}
    {recv : List RecordOpening} {uid : U64}
    (inserted : s.insertBlock d.val ⟨txns.map (·.1), blind, who⟩ = .ok s') (offset : uid.val = s.leaves.length)
    (scanned : w.scanBlock b (txns.map (·.1)) (txns.map (·.2)) uid = .ok (w', recv)) :
    WorldOk d k (h ++ [.block txns blind who time]) s' w' ∧
      (∀ C : RecordOpening × U64 → Prop, (∀ x, Received k (h ++ [.block txns blind who time]) x → C x) →
        (∀ x y, C x → C y → ownNullifier k x = ownNullifier k y → x = y) →
        (∀ x, C x → ∀ t memos n, InList txns t memos n → records h + n + t.outputCommitments.length ≤ x.2.val →
          ownNullifier k x ∉ t.nullifiers) →
        ∀ x, w'.Holds x → ∀ t ∈ txns, ownNullifier k x ∉ t.1.nullifiers) ∧
      (∀ x, w'.Holds x → w.Holds x ∨ records h ≤ x.2.val) := by
  obtain ⟨fee, -, e1, e2, e3, e4, e5⟩ := LedgerState.insertBlock_ok inserted
  dsimp only at e1 e3
  unfold Wallet.scanBlock at scanned
  rw [if_neg (by simp), zip_map_self] at scanned
  have hlen : s'.leaves.length = s.leaves.length + outputs txns + 1 := by
    rw [e1, List.length_append, List.length_append, outputs_length, List.length_singleton]
  have hoff : uid.val = records h := offset.trans i.size
  obtain ⟨w1, recv1, a1, a2, a3, a4, a5, a6, a7, a8, a9, a10⟩ := Wallet.scanTxns_spec b txns i.ok (off := uid)
    (by omega) (Wallet.scanTxns_lens scanned)
  rw [a1] at scanned
  cases scanned
  simp only [i.nullify] at a5 a7 a8 a10
  rw [i.key] at a6 a7 a10
  rw [hoff] at a6 a7 a8 a10
  have mem_nulls : ∀ x, x ∈ s'.nullifiers ↔ (∃ t ∈ txns, x ∈ t.1.nullifiers) ∨ x ∈ s.nullifiers := by
    intro x
    rw [e3, List.flatMap_map, List.mem_flatMap]
  have keep : ∀ x, w.Holds x → w'.Holds x ∨ ownNullifier k x ∈ s'.nullifiers := fun x hx =>
    (a5 x hx).imp id (fun h => (mem_nulls _).2 (.inl h))
  have keepN : ∀ x ∈ s.nullifiers, x ∈ s'.nullifiers := fun x hx => (mem_nulls x).2 (.inr hx)
  have leaf : ∀ {t : TransactionNote} {memos : List E.AeadCt} {n j : ℕ} {rc : F}, InList txns t memos n →
      t.outputCommitments[j]? = some rc → s'.leaves[records h + n + j]? = some rc := by
    intro t memos n j rc hi hrc
    have h1 := flatMap_at hi hrc
    have h2 := (List.getElem?_eq_some_iff.1 h1).1
    rw [e1, List.append_assoc, List.getElem?_append_right (by rw [i.size]; omega), List.getElem?_append_left (by
      rw [i.size]; omega), i.size]
    have : records h + n + j - records h = n + j := by omega
    rw [this]
    exact h1
  have recd : ∀ {x t memos n}, InList txns t memos n →
      (MemoAt k t memos (records h + n) x ∨ ChangeAt w.changes t (records h + n) x) →
      Received k (h ++ [.block txns blind who time]) x ∧ x.1.pub_key = k.pubKey ∧ x.1.freeze_flag = .unfrozen ∧
        s'.leaves[x.2.val]? = some x.1.commitment := by
    rintro ⟨ro, u⟩ t memos n hi (⟨hf, j, rc, c, h1, h2, h3, h4⟩ | ⟨h1, h2, h3⟩)
    · obtain ⟨h5, h6⟩ := C35_sound _ _ _ _ _ h3
      refine ⟨.memo (.last hi) h1 h2 h3 h4, h5, hf, ?_⟩
      dsimp only at h4 h6 ⊢
      have h7 := leaf hi h1
      rw [h4, h6, ← h7]
      congr 1
      omega
    · obtain ⟨h4, h5, h6⟩ := i.changes _ h1
      refine ⟨.change (List.mem_append_left _ h4) (.last hi) h2 h3, h5, h6, ?_⟩
      dsimp only at h3 ⊢
      rw [h3]
      exact leaf hi h2
  refine ⟨⟨a2, a3.keypair.trans i.key, ?_, e4, e5, by rw [e2]; exact List.mem_cons_self, fun x => ?_, fun x hx => ?_,
    fun c hc => ?_, fun ro u hm => ?_, fun t memos pos x a hm => ?_, fun c before after heq tw => ?_⟩, fun C g1 g2 g3 x hx => ?_,
    fun x hx => ?_⟩
  · rw [records_append, hlen, i.size]
    exact Nat.add_assoc _ _ _
  · rw [mem_nulls, i.nulls]
    constructor
    · rintro (⟨t, ht, hx⟩ | ⟨t, memos, pos, a, hx⟩)
      · obtain ⟨n, hn⟩ := InList.of_mem ht
        exact ⟨t.1, t.2, _, .last hn, hx⟩
      · exact ⟨t, memos, pos, a.mono _, hx⟩
    · rintro ⟨t, memos, pos, a, hx⟩
      rcases a.cases with a | ⟨txns', _, _, _, n, he, hi, -⟩
      · exact .inr ⟨t, memos, pos, a, hx⟩
      · cases he
        exact .inl ⟨_, hi.mem, hx⟩
  · rcases a6 x hx with h1 | ⟨t, memos, n, hi, h1⟩
    · obtain ⟨b1, b2, b3, b4⟩ := i.held x h1
      refine ⟨b1.mono _, b2, b3, ?_⟩
      rw [e1, List.append_assoc, List.getElem?_append_left (List.getElem?_eq_some_iff.1 b4).1]
      exact b4
    · exact recd hi h1
  · obtain ⟨b1, b2⟩ := i.changes c (a4 c hc)
    exact ⟨List.mem_append_left _ b1, b2⟩
  · rcases List.mem_append.1 hm with h1 | h1
    · exact (i.told ro u h1).elim (keep _) (fun h => .inr (keepN _ h))
    · cases List.mem_singleton.1 h1
  · rcases a.cases with a | ⟨txns', _, _, _, n, he, hi, rfl⟩
    · exact (i.memo t memos pos x a hm).elim (keep _) (fun h => .inr (keepN _ h))
    · cases he
      exact (a7 x t memos n hi hm).imp id (fun h => (mem_nulls _).2 (.inl h))
  · rcases append_cons_cases heq with ⟨-, h1, -⟩ | ⟨after', rfl, h5⟩
    · cases h1
    · rcases i.change c before after' h5 (fun c' hc' => tw c' (List.mem_append_left _ hc')) with ⟨h6, h7⟩ | h6
      · rcases a8 c h6 with h8 | ⟨t, memos, n, u, hi, h8, h9⟩
        · refine .inl ⟨h8, fun txns' blind' who' time' hm t ht => ?_⟩
          rcases List.mem_append.1 hm with hm | hm
          · exact h7 _ _ _ _ hm t ht
          · cases List.mem_singleton.1 hm
            exact a9 c h8 (fun c' hc' he => tw c' (List.mem_append_left _ (i.changes c' hc').1) he) t ht
        · exact .inr ⟨t, memos, _, u, .last hi, h8.2.1, h8.2.2, h9.imp id (fun h => (mem_nulls _).2 (.inl h))⟩
      · exact .inr (h6.step _ keep keepN)
  · exact a10 C (fun x hx => g1 x ((i.held x hx).1.mono _)) (fun x t memos n hi hm => g1 x (recd hi (.inl hm)).1)
      (fun x t memos n hi hm => g1 x (recd hi (.inr hm)).1) g2 g3 x hx
  · rcases a6 x hx with h1 | ⟨t, memos, n, hi, h1⟩
    · exact .inl h1
    · right
      rcases h1 with ⟨-, j, rc, c, -, -, -, hp⟩ | ⟨-, -, hp⟩ <;> omega

omit S in
theorem Spec.SameContents.holds {w w' : Wallet} (h : SameContents w w') (x : RecordOpening × U64) : w'.Holds x ↔ w.Holds x := by
  obtain ⟨l, h1, h2⟩ := h.unspent
  have : Shelf.On l x ↔ Shelf.On w.unspent x := by
    clear h2 h
    generalize w.unspent = u at h1
    induction h1 with
    | nil => rfl
    | cons he _ ih => rw [Shelf.on_cons, Shelf.on_cons, ih, he.2.mem_iff]
  exact (show Shelf.On w'.unspent x ↔ Shelf.On l x from by unfold Shelf.On; simp only [h2.mem_iff]).trans this

omit S in
theorem Spec.SameContents.ok {w w' : Wallet} (h : SameContents w w') (ok : w.Ok) : w'.Ok := by
  obtain ⟨l, h1, h2⟩ := h.unspent
  have hl : Shelf.Ok l ∧ l.map (·.1) = w.unspent.map (·.1) := by
    have hs := ok.shelf
    clear h2 h ok
    generalize w.unspent = u at h1 hs
    induction h1 with
    | nil => exact ⟨hs, rfl⟩
    | cons he _ ih =>
      rename_i e e' u l
      obtain ⟨i1, i2⟩ := ih hs.tail
      have h3 := hs.cons i1 i2
      refine ⟨⟨?_, ?_, ?_⟩, by rw [List.map_cons, List.map_cons, i2, he.1]⟩
      · have := h3.codes
        rwa [List.map_cons, he.1, ← List.map_cons (f := fun x : AssetCode × List (RecordOpening × U64) => x.1)] at this
      · intro a ha
        rcases List.mem_cons.1 ha with rfl | ha
        · intro x hx
          rw [← he.1]
          exact hs.sorted _ List.mem_cons_self x (he.2.mem_iff.2 hx)
        · exact i1.sorted a ha
      · intro a ha
        rcases List.mem_cons.1 ha with rfl | ha
        · exact (he.2.nodup_iff).1 (hs.nodup _ List.mem_cons_self)
        · exact i1.nodup a ha
  have hm : ∀ c, c ∈ w'.unspent.map (·.1) ↔ c ∈ w.unspent.map (·.1) := fun c => by
    rw [← hl.2]
    exact (h2.map _).symm.mem_iff
  refine ⟨⟨(h2.map _).nodup_iff.1 hl.1.codes, fun e he => hl.1.sorted e (h2.mem_iff.2 he),
    fun e he => hl.1.nodup e (h2.mem_iff.2 he)⟩, fun e he => ?_⟩
  obtain ⟨h3, h4⟩ := ok.pending e (h.pending.mem_iff.2 he)
  refine ⟨?_, (hm _).2 h4⟩
  unfold Wallet.nullify at h3 ⊢
  rw [h.keypair]
  exact h3

/-- **The invariant holds in every world.** -/
theorem worldOk {d : Fin 256} {b : Build} {k : UserKeyPair} {h : List Seen} {s : LedgerState} {w : Wallet}
    (world : World d b k h s w) : WorldOk d k h s w := by
  induction world with
  | start =>
    refine ⟨.new k, rfl, rfl, by simp [LedgerState.new, LedgerState.storeRoot], by simp [LedgerState.new, LedgerState.storeRoot],
      List.mem_cons_self, fun x => ⟨fun h => (nomatch h), fun ⟨t, m, p, a, _⟩ => a.not_nil.elim⟩,
      fun x ⟨e, he, _⟩ => (nomatch he), fun c hc => (nomatch hc), fun _ _ h => (nomatch h),
      fun t m p x a _ => a.not_nil.elim, fun c before after heq => by simp at heq⟩
  | grant before ok i =>
    rename_i h s w ro s'
    obtain ⟨e1, e2, e3, e4, e5⟩ := LedgerState.grant_ok ok
    refine i.plain _ (fun _ _ _ _ h => (nomatch h)) i.ok i.key ?_ (by simpa using e4) (by simpa using e5)
      (by rw [e2]; exact List.mem_cons_self) (fun j c hj => ?_) e3 (fun _ h => h) (fun _ h => .inl h)
      (fun _ _ h => (nomatch h)) (fun c => ⟨.inl, fun h => h.elim id (fun h => (nomatch h))⟩) (fun _ h => (nomatch h))
    · rw [records_append, ← i.size, e1]
      simp [Seen.size]
    · rw [e1, List.getElem?_append_left (List.getElem?_eq_some_iff.1 hj).1]
      exact hj
  | block before valid inserted offset scanned i => exact (i.block inserted offset scanned).1
  | told before mine unfrozen there unspent i =>
    rename_i h s w ro uid
    refine i.plain _ (fun _ _ _ _ h => (nomatch h)) (i.ok.add _ _) i.key ?_ i.small i.room i.root (fun j c hj => hj) rfl
      (fun x hx => Wallet.holds_add.2 (.inr hx)) (fun x hx => ?_) (fun ro' uid' he => ?_)
      (fun c => ⟨.inl, fun h => h.elim id (fun h => (nomatch h))⟩) (fun _ h => (nomatch h))
    · rw [records_append, i.size]
      rfl
    · rcases Wallet.holds_add.1 hx with rfl | hx
      · exact .inr ⟨rfl, mine, unfrozen, there⟩
      · exact .inl hx
    · cases he
      exact Wallet.holds_add.2 (.inl rfl)
  | spending before holds i =>
    rename_i h s w x
    refine i.plain _ (fun _ _ _ _ h => (nomatch h)) ⟨i.ok.shelf, fun e he => ?_⟩ i.key ?_ i.small i.room i.root
      (fun j c hj => hj) rfl (fun _ h => h) (fun _ h => .inl h)
      (fun _ _ h => (nomatch h)) (fun c => ⟨.inl, fun h => h.elim id (fun h => (nomatch h))⟩) (fun _ h => (nomatch h))
    · rcases List.mem_cons.1 he with rfl | he
      · obtain ⟨a, ha, hx⟩ := holds
        refine ⟨rfl, List.mem_map.2 ⟨a, ha, (i.ok.shelf.sorted a ha x hx).symm⟩⟩
      · exact i.ok.pending e (List.mem_filter.1 he).1
    · rw [records_append, i.size]
      rfl
  | expecting before mine unfrozen i =>
    rename_i h s w chg
    refine i.plain _ (fun _ _ _ _ h => (nomatch h)) ⟨i.ok.shelf, i.ok.pending⟩ i.key ?_ i.small i.room i.root
      (fun j c hj => hj) rfl (fun _ h => h) (fun _ h => .inl h) (fun _ _ h => (nomatch h)) (fun c => ?_) (fun c he => ?_)
    · rw [records_append, i.size]
      rfl
    · show c ∈ setInsert chg w.changes ↔ _
      rw [mem_setInsert]
      constructor
      · rintro (rfl | h)
        · exact .inr rfl
        · exact .inl h
      · rintro (h | h)
        · exact .inr h
        · cases h; exact .inl rfl
    · cases he
      exact ⟨mine, unfrozen⟩
  | credential before c i =>
    exact ⟨⟨i.ok.shelf, i.ok.pending⟩, i.key, i.size, i.small, i.room, i.root, i.nulls, i.held, i.changes, i.told, i.memo, i.change⟩
  | reorder before same i =>
    rename_i h s w w'
    have hh := same.holds
    have hc : ∀ c, c ∈ w'.changes ↔ c ∈ w.changes := fun c => same.changes.symm.mem_iff
    refine ⟨same.ok i.ok, same.keypair.trans i.key, i.size, i.small, i.room, i.root, i.nulls, fun x hx => i.held x ((hh x).1 hx),
      fun c h => i.changes c ((hc c).1 h), fun ro uid hm => (i.told ro uid hm).imp (hh _).2 id,
      fun t memos pos x a hm => (i.memo t memos pos x a hm).imp (hh _).2 id, fun c before after heq tw => ?_⟩
    rcases i.change c before after heq tw with ⟨h1, h2⟩ | ⟨t, memos, pos, uid, h1, h2, h3, h4⟩
    · exact .inl ⟨(hc c).2 h1, h2⟩
    · exact .inr ⟨t, memos, pos, uid, h1, h2, h3, h4.imp (hh _).2 id⟩

/-- what is apart stays apart when the history was shorter -/
theorem Spec.Apart.before {k : UserKeyPair} {h : List Seen} {e : Seen} (a : Apart k (h ++ [e])) : Apart k h :=
  ⟨fun x y hx hy => a.among x y (hx.mono e) (hy.mono e), fun x hx t m p ha => a.past x (hx.mono e) t m p (ha.mono e)⟩

/-- **The nullifiers of the records of the wallet are not published.** -/
theorem world_fresh {d : Fin 256} {b : Build} {k : UserKeyPair} {h : List Seen} {s : LedgerState} {w : Wallet}
    (world : World d b k h s w) (apart : Apart k h) : ∀ x, w.Holds x → ownNullifier k x ∉ s.nullifiers := by
  induction world with
  | start => exact fun x ⟨e, he, _⟩ => (nomatch he)
  | grant before ok ih =>
    intro x hx
    rw [(LedgerState.grant_ok ok).2.2.1]
    exact ih apart.before x hx
  | block before valid inserted offset scanned ih =>
    rename_i h s w txns blind who time s' w' recv uid
    have i := worldOk before
    obtain ⟨-, h2, h3⟩ := i.block (time := time) inserted offset scanned
    obtain ⟨fee, -, -, -, e3, -⟩ := LedgerState.insertBlock_ok inserted
    intro x hx
    dsimp only at e3
    rw [e3, List.flatMap_map, List.mem_flatMap, not_or]
    constructor
    · rintro ⟨t, ht, hn⟩
      refine h2 (Received k (h ++ [.block txns blind who time])) (fun _ h => h) apart.among ?_ x hx t ht hn
      exact fun x hx t m n hi hp => apart.past x hx t m _ (.last hi) hp
    · rcases h3 x hx with h4 | h4
      · exact ih apart.before x h4
      · rw [i.nulls]
        rintro ⟨t, m, p, a, hn⟩
        have hr := ((i.block (time := time) inserted offset scanned).1.held x hx).1
        refine apart.past x hr t m p (a.mono _) (le_trans ?_ h4) hn
        obtain ⟨before, txns, blind, who, time, after, earlier, later, rfl, rfl, rfl⟩ := a
        simp only [records, List.map_append, List.map_cons, List.sum_append, List.sum_cons, Seen.size, outputs]
        omega
  | told before mine unfrozen there unspent ih =>
    intro x hx
    rcases Wallet.holds_add.1 hx with rfl | hx
    · rw [← (worldOk before).nullify]
      exact unspent
    · exact ih apart.before x hx
  | spending before holds ih => exact ih apart.before
  | expecting before mine unfrozen ih => exact ih apart.before
  | credential before c ih => exact ih apart
  | reorder before same ih => exact fun x hx => ih apart x ((same.holds x).1 hx)

/-- **Scanning does not panic.** -/
theorem world_scans {d : Fin 256} {b : Build} {k : UserKeyPair} {h : List Seen} {s s' : LedgerState} {w : Wallet}
    (world : World d b k h s w) {txns : List (TransactionNote × List E.AeadCt)} {blind : F} {who : UserPubKey}
    (inserted : s.insertBlock d.val ⟨txns.map (·.1), blind, who⟩ = .ok s') {uid : U64} (offset : uid.val = s.leaves.length)
    (lens : ∀ t ∈ txns, t.1.outputCommitments.length = t.2.length + 1) :
    ∃ w' recv, w.scanBlock b (txns.map (·.1)) (txns.map (·.2)) uid = .ok (w', recv) := by
  have i := worldOk world
  obtain ⟨fee, -, e1, -, -, e4, -⟩ := LedgerState.insertBlock_ok inserted
  have hlen : s'.leaves.length = s.leaves.length + outputs txns + 1 := by
    rw [e1, List.length_append, List.length_append, outputs_length, List.length_singleton]
  obtain ⟨w1, recv1, a1, -⟩ := Wallet.scanTxns_spec b txns i.ok (off := uid) (by omega) lens
  refine ⟨w1, recv1, ?_⟩
  unfold Wallet.scanBlock
  rw [if_neg (by simp), zip_map_self]
  exact a1

end Cap
