/-
C96: a wallet that waits for its payments pays out exactly what it has.

status: partial
note: C61 shows that a wallet cannot make two payments without waiting (C61_twice_false). C96 is about a wallet that waits for each payment to be in a scanned block. C96_statement: whatever the block (anybody's transactions, any memos), what a wallet holds of an asset changes by exactly the held records whose nullifier the block publishes and the records its memos and awaited changes bring. C96_settled: after the block with its own payment the wallet holds what it held without the coins spent, the change, and what it paid to itself, and nothing else. C96_charge, C96_account: its balance is lower by exactly the amounts paid to others and the fees, after any number of payments. C96_next_partial: the next payment is made and accepted as long as the balance at the beginning covers it together with those made. C96_goes_on and C96_all_partial: hence all payments of a list can be made that the balance covers. Hypotheses on the history: the nullifiers the wallet meets are apart (C59), and Tidy: no two awaited changes have the same commitment, no record has the nullifier of a dummy, and a memo the wallet can open holds the record it was written for. Partial: totals below 2^127, keys of the sizes needed, room in the tree; completeness of the SNARK is assumed.
-/
import Verif.Props.C61

namespace Cap

open Spec

variable [E : CapEnv]

/-- these are the records of an asset in the wallet, each listed once -/
def Spec.Coins (w : Wallet) (code : AssetCode) (l : List (RecordOpening × U64)) : Prop :=
  l.Nodup ∧ ∀ x, x ∈ l ↔ w.Holds x ∧ x.1.asset_def.code = code

variable [S : CapExt]

/-- A memo of a transaction in a block after the history `h` tells the owner of `k` of this record of theirs. -/
def Spec.MemoIn (k : UserKeyPair) (h : List Seen) (txns : List (TransactionNote × List E.AeadCt))
    (x : RecordOpening × U64) : Prop :=
  ∃ earlier t memos later j rc c, txns = earlier ++ (t, memos) :: later ∧ t.outputCommitments[j + 1]? = some rc ∧
    memos[j]? = some c ∧ ReceiverMemo.decrypt c k rc [] = .ok x.1 ∧ x.1.freeze_flag = .unfrozen ∧
    x.2.val = records h + outputs earlier + 1 + j

/-- A change that was awaited comes back with a transaction in a block after the history `h`. -/
def Spec.ChangeIn (h : List Seen) (txns : List (TransactionNote × List E.AeadCt)) (x : RecordOpening × U64) : Prop :=
  ∃ earlier t memos later, txns = earlier ++ (t, memos) :: later ∧ .expecting x.1 ∈ h ∧
    t.outputCommitments[0]? = some x.1.commitment ∧ x.2.val = records h + outputs earlier

/-- An order to pay: the randomness the wallet draws, who is paid how much, and the fee. -/
structure Spec.Order where
  rng : PaymentRand
  recipients : List (UserPubKey × Amount)
  fee : Amount

/-- what an order pays to others than the owner of `k` -/
def Spec.Order.toOthers (o : Order) (k : UserKeyPair) : ℕ :=
  ((o.recipients.filter (fun r => r.1 ≠ k.pubKey)).map (·.2.val)).sum

/-- The wallet makes these payments in the native asset, and waits after each until it has scanned a block with it. -/
inductive Spec.PaysInTurn (d : Fin 256) (b : Build) (k : UserKeyPair) : List Seen → LedgerState → Wallet → List Order →
    List Seen → LedgerState → Wallet → Prop
  | done {h s w} : PaysInTurn d b k h s w [] h s w
  | pay {h s w w1 s1 w2 note memos sig coins chg blind who time uid recv} {o : Order} {orders h' s' w'}
      (made : w.spendNative b d s o.rng o.recipients o.fee = .ok (w1, note, memos, sig))
      (payment : Payment k w o.rng o.recipients o.fee coins chg note memos)
      (begun : World d b k (h ++ coins.map .spending ++ [.expecting chg]) s w1)
      (valid : validateTxnsBatch d s [.transfer note] time = .ok ())
      (inserted : s.insertBlock d.val ⟨[.transfer note], blind, who⟩ = .ok s1)
      (offset : (uid : U64).val = s.leaves.length)
      (scanned : w1.scanBlock b [.transfer note] [memos] uid = .ok (w2, recv))
      (rest : PaysInTurn d b k (h ++ coins.map .spending ++ [.expecting chg] ++
        [.block [(.transfer note, memos)] blind who time]) s1 w2 orders h' s' w') :
      PaysInTurn d b k h s w (o :: orders) h' s' w'

/-- Nothing of the history coincides by accident with what the orders draw: different changes have different commitments, no
record the wallet is told of has the nullifier of a dummy, and a memo that the wallet can open holds the record it was
written for. -/
structure Spec.Tidy (k : UserKeyPair) (h : List Seen) (orders : List Order) : Prop where
  changes : ∀ c c', .expecting c ∈ h → .expecting c' ∈ h → c'.commitment = c.commitment → c' = c
  dummies : ∀ o ∈ orders, ∀ x, Received k h x → ownNullifier k x ≠ dummyNullifier o.rng
  memos : ∀ o ∈ orders, ∀ j ro c ro', paid o.rng AssetDefinition.native o.recipients j ro →
    ReceiverMemo.fromRo (o.rng.memos j) ro [] = .ok c → ReceiverMemo.decrypt c k ro.commitment [] = .ok ro' → ro' = ro

variable {d : Fin 256} {b : Build} {k : UserKeyPair} {h : List Seen} {s s' : LedgerState} {w w' : Wallet}
  {rng : PaymentRand} {recipients : List (UserPubKey × Amount)} {fee : Amount} {note : TransferNote}
  {memos : List E.AeadCt} {sig : E.Sig}

omit E S in
theorem total_swap [E : CapEnv] [S : CapExt] {l m : List (RecordOpening × U64)} (hl : l.Nodup) (hm : m.Nodup)
    (p q : RecordOpening × U64 → Bool) (hp : ∀ x ∈ l, p x = true ↔ x ∈ m) (hq : ∀ x ∈ m, q x = true ↔ x ∈ l) :
    total (m.map (·.1)) + total ((l.filter (fun x => !p x)).map (·.1)) =
      total (l.map (·.1)) + total ((m.filter (fun x => !q x)).map (·.1)) := by
  have split : ∀ (l : List (RecordOpening × U64)) (p : RecordOpening × U64 → Bool),
      total (l.map (·.1)) = total ((l.filter p).map (·.1)) + total ((l.filter (fun x => !p x)).map (·.1)) := by
    intro l p
    have : (l.filter p ++ l.filter (fun x => !p x)).Perm l := List.filter_append_perm p l
    rw [← total_append, ← List.map_append]
    exact ((this.map _).map _).sum_eq.symm
  have both : (l.filter p).Perm (m.filter q) := by
    rw [List.perm_ext_iff_of_nodup (hl.filter _) (hm.filter _)]
    intro x
    rw [List.mem_filter, List.mem_filter]
    exact ⟨fun ⟨h1, h2⟩ => ⟨(hp x h1).1 h2, (hq x ((hp x h1).1 h2)).2 h1⟩,
      fun ⟨h1, h2⟩ => ⟨(hq x h1).1 h2, (hp x ((hq x h1).1 h2)).2 h1⟩⟩
  have e : total ((l.filter p).map (·.1)) = total ((m.filter q).map (·.1)) := ((both.map _).map _).sum_eq
  rw [split l p, split m q, e]
  omega

omit S in
theorem total_perm {l m : List (RecordOpening × U64)} (p : l.Perm m) : total (l.map (·.1)) = total (m.map (·.1)) :=
  ((p.map _).map _).sum_eq

/-- what a scan does to the records held and the changes awaited -/
theorem scan_facts (world : World d b k h s w) {txns : List (TransactionNote × List E.AeadCt)} {blind : F} {who : UserPubKey}
    {recv : List RecordOpening} {uid : U64}
    (inserted : s.insertBlock d.val ⟨txns.map (·.1), blind, who⟩ = .ok s') (offset : uid.val = s.leaves.length)
    (scanned : w.scanBlock b (txns.map (·.1)) (txns.map (·.2)) uid = .ok (w', recv)) :
    (∀ x, w.Holds x → w'.Holds x ∨ ∃ t ∈ txns, ownNullifier k x ∈ t.1.nullifiers) ∧
    (∀ x, w'.Holds x → w.Holds x ∨ ∃ t memos n, InList txns t memos n ∧
      (MemoAt k t memos (records h + n) x ∨ ChangeAt w.changes t (records h + n) x)) ∧
    (∀ x t memos n, InList txns t memos n → MemoAt k t memos (records h + n) x →
      w'.Holds x ∨ ∃ t ∈ txns, ownNullifier k x ∈ t.1.nullifiers) ∧
    (∀ c ∈ w.changes, c ∈ w'.changes ∨ ∃ t memos n uid, InList txns t memos n ∧
      ChangeAt w.changes t (records h + n) (c, uid) ∧
        (w'.Holds (c, uid) ∨ ∃ t ∈ txns, ownNullifier k (c, uid) ∈ t.1.nullifiers)) ∧
    (∀ c ∈ w'.changes, (∀ c' ∈ w.changes, c'.commitment = c.commitment → c' = c) →
      ∀ t ∈ txns, t.1.outputCommitments[0]? ≠ some c.commitment) := by
  have i := worldOk world
  obtain ⟨fee, -, e1, -, -, e4, -⟩ := LedgerState.insertBlock_ok inserted
  dsimp only at e1
  unfold Wallet.scanBlock at scanned
  rw [if_neg (by simp), zip_map_self] at scanned
  have hlen : s'.leaves.length = s.leaves.length + outputs txns + 1 := by
    rw [e1, List.length_append, List.length_append, outputs_length, List.length_singleton]
  have hoff : uid.val = records h := offset.trans i.size
  obtain ⟨w1, recv1, a1, a2, a3, a4, a5, a6, a7, a8, a9, -⟩ := Wallet.scanTxns_spec b txns i.ok (off := uid)
    (by omega) (Wallet.scanTxns_lens scanned)
  rw [a1] at scanned
  cases scanned
  simp only [i.nullify] at a5 a7 a8
  rw [i.key] at a6 a7
  rw [hoff] at a6 a7 a8
  exact ⟨a5, a6, a7, a8, a9⟩

theorem held_before (world : World d b k h s w) {x : RecordOpening × U64} (hx : w.Holds x) : x.2.val < records h := by
  rw [← (worldOk world).size]
  exact (List.getElem?_eq_some_iff.1 (C59_sound world x hx).2.2.2).1

/-- **The statement of account.** -/
theorem C96_statement (world : World d b k h s w) {txns : List (TransactionNote × List E.AeadCt)} {blind : F}
    {who : UserPubKey} {time : U64} {recv : List RecordOpening} {uid : U64}
    (valid : validateTxnsBatch d s (txns.map (·.1)) time = .ok ())
    (inserted : s.insertBlock d.val ⟨txns.map (·.1), blind, who⟩ = .ok s') (offset : uid.val = s.leaves.length)
    (scanned : w.scanBlock b (txns.map (·.1)) (txns.map (·.2)) uid = .ok (w', recv))
    (apart : Apart k (h ++ [.block txns blind who time]))
    {code : AssetCode} {before after : List (RecordOpening × U64)} (hb : Coins w code before) (ha : Coins w' code after) :
    ∃ went came : List (RecordOpening × U64), went.Nodup ∧ came.Nodup ∧
      (∀ x, x ∈ went ↔ x ∈ before ∧ ∃ t ∈ txns, ownNullifier k x ∈ t.1.nullifiers) ∧
      (∀ x ∈ came, x.1.asset_def.code = code ∧ (MemoIn k h txns x ∨ ChangeIn h txns x)) ∧
      (∀ x, x.1.asset_def.code = code → MemoIn k h txns x →
        (∀ t ∈ txns, ownNullifier k x ∉ t.1.nullifiers) → x ∈ came) ∧
      total (after.map (·.1)) + total (went.map (·.1)) = total (before.map (·.1)) + total (came.map (·.1)) := by
  classical
  obtain ⟨f1, f2, f3, -⟩ := scan_facts world inserted offset scanned
  have world' := World.block (time := time) world valid inserted offset scanned
  refine ⟨before.filter (fun x => !decide (x ∈ after)), after.filter (fun x => !decide (x ∈ before)), hb.1.filter _,
    ha.1.filter _, fun x => ?_, fun x hx => ?_, fun x hc arr hn => ?_,
    total_swap hb.1 ha.1 _ _ (fun x _ => decide_eq_true_iff) (fun x _ => decide_eq_true_iff)⟩
  · rw [List.mem_filter]
    refine and_congr_right fun hx => ?_
    obtain ⟨h1, h2⟩ := (hb.2 x).1 hx
    rw [Bool.not_eq_true', decide_eq_false_iff_not, ha.2]
    constructor
    · exact fun hna => (f1 x h1).resolve_left (fun h' => hna ⟨h', h2⟩)
    · rintro ⟨t, ht, hx⟩ ⟨h', -⟩
      exact C59_gone (more := []) world' apart x ht hx h'
  · rw [List.mem_filter, Bool.not_eq_true', decide_eq_false_iff_not] at hx
    obtain ⟨h1, h2⟩ := (ha.2 x).1 hx.1
    refine ⟨h2, ?_⟩
    rcases f2 x h1 with h3 | ⟨t, memos, n, ⟨earlier, later, h3, rfl⟩, h4⟩
    · exact absurd ((hb.2 x).2 ⟨h3, h2⟩) hx.2
    · rcases h4 with ⟨hf, j, rc, c, h4, h5, h6, h7⟩ | ⟨h4, h5, h6⟩
      · exact .inl ⟨earlier, t, memos, later, j, rc, c, h3, h4, h5, h6, hf, h7⟩
      · exact .inr ⟨earlier, t, memos, later, h3, ((worldOk world).changes _ h4).1, h5, h6⟩
  · obtain ⟨earlier, t, memos, later, j, rc, c, h1, h2, h3, h4, h5, hp⟩ := arr
    rw [List.mem_filter, Bool.not_eq_true', decide_eq_false_iff_not]
    refine ⟨(ha.2 x).2 ⟨(f3 x t memos _ ⟨earlier, later, h1, rfl⟩ ⟨h5, j, rc, c, h2, h3, h4, hp⟩).resolve_right ?_, hc⟩,
      fun hx => ?_⟩
    · rintro ⟨t, ht, hx⟩
      exact hn t ht hx
    · have := held_before world ((hb.2 x).1 hx).1
      omega

/-- the change a wallet has just begun to wait for is among those it waits for -/
theorem expecting_changes {H : List Seen} (world : World d b k H s w) :
    ∀ {h : List Seen} {chg : RecordOpening}, H = h ++ [.expecting chg] → chg ∈ w.changes := by
  have last : ∀ {l m : List Seen} {x y : Seen}, l ++ [x] = m ++ [y] → x = y := fun he =>
    (List.cons.inj (List.append_inj' he rfl).2).1
  induction world with
  | start => intro h chg he; simp at he
  | grant => intro h chg he; exact (nomatch last he)
  | block => intro h chg he; exact (nomatch last he)
  | told => intro h chg he; exact (nomatch last he)
  | spending => intro h chg he; exact (nomatch last he)
  | expecting =>
    intro h chg he
    cases last he
    exact mem_setInsert.2 (.inl rfl)
  | credential _ _ ih => exact ih
  | reorder _ same ih => exact fun he => same.changes.mem_iff.1 (ih he)

theorem records_begun (h : List Seen) (coins : List (RecordOpening × U64)) (chg : RecordOpening) :
    records (h ++ coins.map .spending ++ [.expecting chg]) = records h := by
  have : ∀ l : List (RecordOpening × U64), (List.map Seen.size (l.map Seen.spending)).sum = 0 := by
    intro l
    induction l with
    | nil => rfl
    | cons a l ih => rw [List.map_cons, List.map_cons, List.sum_cons, ih]; rfl
  unfold records
  rw [List.map_append, List.map_append, List.sum_append, List.sum_append, this]
  rfl

/-- **What a settled payment leaves.** -/
theorem C96_settled (world : World d b k h s w) {o : Order} {w1 w2 : Wallet} {coins : List (RecordOpening × U64)}
    {chg : RecordOpening} {blind : F} {who : UserPubKey} {time : U64} {uid : U64} {recv : List RecordOpening}
    (made : w.spendNative b d s o.rng o.recipients o.fee = .ok (w1, note, memos, sig))
    (payment : Payment k w o.rng o.recipients o.fee coins chg note memos)
    (begun : World d b k (h ++ coins.map .spending ++ [.expecting chg]) s w1)
    (valid : validateTxnsBatch d s [.transfer note] time = .ok ())
    (inserted : s.insertBlock d.val ⟨[.transfer note], blind, who⟩ = .ok s') (offset : uid.val = s.leaves.length)
    (scanned : w1.scanBlock b [.transfer note] [memos] uid = .ok (w2, recv))
    (apart : Apart k (h ++ coins.map .spending ++ [.expecting chg] ++ [.block [(.transfer note, memos)] blind who time]))
    (tidy : Tidy k (h ++ coins.map .spending ++ [.expecting chg] ++ [.block [(.transfer note, memos)] blind who time]) [o])
    (x : RecordOpening × U64) :
    w2.Holds x ↔ (w.Holds x ∧ x ∉ coins) ∨ (x.1 = chg ∧ x.2.val = records h) ∨
      ∃ j, paid o.rng AssetDefinition.native o.recipients j x.1 ∧ x.1.pub_key = k.pubKey ∧ x.2.val = records h + 1 + j := by
  have same : ∀ x, w1.Holds x ↔ w.Holds x := by
    obtain ⟨_, _, -, -, -, h1⟩ := C61_payment world made
    exact h1
  obtain ⟨f1, f2, f3, f4, f5⟩ := scan_facts (txns := [(.transfer note, memos)]) begun inserted offset scanned
  have world2 := World.block (txns := [(.transfer note, memos)]) (time := time) begun valid inserted offset scanned
  rw [records_begun] at f2 f3 f4
  set H := h ++ coins.map .spending ++ [.expecting chg] with hH
  have nulls : (TransactionNote.transfer note).nullifiers = coins.map (ownNullifier k) ++ [dummyNullifier o.rng] :=
    payment.nullifiers
  have only : ∀ {t ms n}, InList [(TransactionNote.transfer note, memos)] t ms n → t = .transfer note ∧ ms = memos ∧ n = 0 := by
    intro t ms n hi
    rcases hi.cases with ⟨h3, h4⟩ | ⟨m, -, h3⟩
    · cases h3
      exact ⟨rfl, rfl, h4⟩
    · exact (nomatch h3.mem)
  have coin_known : ∀ y ∈ coins, Received k (H ++ [.block [(.transfer note, memos)] blind who time]) y := fun y hy =>
    ((C59_sound begun y ((same y).2 (payment.held y hy).1)).1).mono _
  -- a record the wallet is told of is spent by the payment only if it is one of the coins
  have unspent : ∀ x, Received k (H ++ [.block [(.transfer note, memos)] blind who time]) x →
      (∃ t ∈ [(TransactionNote.transfer note, memos)], ownNullifier k x ∈ t.1.nullifiers) → x ∈ coins := by
    rintro x hr ⟨t, ht, hx⟩
    obtain rfl := List.mem_singleton.1 ht
    rw [nulls] at hx
    rcases List.mem_append.1 hx with hx | hx
    · obtain ⟨y, hy, e⟩ := List.mem_map.1 hx
      rw [← apart.among y x (coin_known y hy) hr e]
      exact hy
    · exact absurd (List.mem_singleton.1 hx) (tidy.dummies o List.mem_cons_self x hr)
  have early : ∀ y ∈ coins, y.2.val < records h := fun y hy => held_before world (payment.held y hy).1
  have here : ∀ {pos}, InList [(TransactionNote.transfer note, memos)] (.transfer note) memos pos →
      At (H ++ [.block [(.transfer note, memos)] blind who time]) (.transfer note) memos (records H + pos) := fun hi => .last hi
  have hrec : records H = records h := records_begun h coins chg
  have awaited : .expecting chg ∈ H ++ [.block [(.transfer note, memos)] blind who time] := by
    rw [hH]
    simp
  constructor
  · intro hx
    rcases f2 x hx with h1 | ⟨t, ms, n, hi, h2⟩
    · refine .inl ⟨(same x).1 h1, fun hc => ?_⟩
      refine C59_gone (more := []) world2 apart x (t := (.transfer note, memos)) List.mem_cons_self ?_ hx
      show _ ∈ (TransactionNote.transfer note).nullifiers
      rw [nulls]
      exact List.mem_append_left _ (List.mem_map_of_mem hc)
    · obtain ⟨rfl, rfl, rfl⟩ := only hi
      rcases h2 with ⟨hf, j, rc, c, h3, h4, h5, h6⟩ | ⟨h3, h4, h5⟩
      · have hj : j < o.recipients.length := by
          rw [← payment.lengths.2]
          exact (List.getElem?_eq_some_iff.1 h4).1
        obtain ⟨g1, c', g2, g3⟩ := payment.rest j _ ⟨_, List.getElem?_eq_getElem hj, rfl⟩
        have e1 := Option.some.inj (g2.symm.trans h4)
        have e2 := Option.some.inj (g1.symm.trans (show note.output_commitments[j + 1]? = some rc from h3))
        rw [← e1, ← e2] at h5
        have e3 := tidy.memos o List.mem_cons_self j _ c' x.1 ⟨_, List.getElem?_eq_getElem hj, rfl⟩ g3 h5
        refine .inr (.inr ⟨j, ⟨_, List.getElem?_eq_getElem hj, e3⟩, (C35_sound _ _ _ _ _ h5).1, by omega⟩)
      · refine .inr (.inl ⟨?_, by omega⟩)
        have h6 := ((worldOk begun).changes _ h3).1
        have e := Option.some.inj (h4.symm.trans (show (TransactionNote.transfer note).outputCommitments[0]? = _ from payment.first))
        exact tidy.changes chg x.1 awaited (List.mem_append_left _ h6) e
  · rintro (⟨h1, h2⟩ | ⟨h1, h2⟩ | ⟨j, h1, h2, h3⟩)
    · have hr := ((C59_sound begun x ((same x).2 h1)).1).mono (.block [(.transfer note, memos)] blind who time)
      exact (f1 x ((same x).2 h1)).resolve_right (fun hn => h2 (unspent x hr hn))
    · obtain ⟨ro, u⟩ := x
      dsimp only at h1 h2
      subst h1
      have hw := expecting_changes begun rfl
      rcases f4 ro hw with h3 | ⟨t, ms, n, u', hi, h3, h4⟩
      · exact absurd payment.first (f5 ro h3 (fun c' hc' e => tidy.changes ro c' awaited
          (List.mem_append_left _ ((worldOk begun).changes _ hc').1) e) _ List.mem_cons_self)
      · obtain ⟨rfl, rfl, rfl⟩ := only hi
        have hu : u' = u := Fin.ext (h3.2.2.trans h2.symm)
        subst hu
        refine h4.resolve_right (fun hn => ?_)
        have := early _ (unspent _ (.change awaited (here hi) payment.first (by rw [hrec]; exact h2)) hn)
        dsimp only at this
        omega
    · obtain ⟨ro, u⟩ := x
      dsimp only at h1 h2 h3
      obtain ⟨g1, c', g2, g3⟩ := payment.rest j ro h1
      have g4 := C35_round_trip _ _ _ k _ h2 g3
      have hf : ro.freeze_flag = .unfrozen := by
        obtain ⟨r, -, e⟩ := h1
        rw [e]
      refine (f3 (ro, u) (.transfer note) memos 0 .head ⟨hf, j, _, c', g1, g2, g4, by dsimp only; omega⟩).resolve_right
        (fun hn => ?_)
      have := early _ (unspent _ (.memo (here .head) g1 g2 g4 (by rw [hrec]; omega)) hn)
      dsimp only at this
      omega

/-- the records an order creates for its own maker, and where they are when its first output is at `pos` -/
def Spec.Order.ownRecords (o : Order) (k : UserKeyPair) (pos : ℕ) : List (RecordOpening × U64) :=
  (o.recipients.zipIdx.filter (fun r => r.1.1 = k.pubKey)).map (fun r =>
    (⟨r.1.2, AssetDefinition.native, r.1.1, .unfrozen, o.rng.blinds r.2⟩, Fin.ofNat (2 ^ 64) (pos + 1 + r.2)))

omit S in
theorem mem_ownRecords {o : Order} {pos : ℕ} (small : pos + 1 + o.recipients.length ≤ 2 ^ 64) (x : RecordOpening × U64) :
    x ∈ o.ownRecords k pos ↔ ∃ j, paid o.rng AssetDefinition.native o.recipients j x.1 ∧ x.1.pub_key = k.pubKey ∧
      x.2.val = pos + 1 + j := by
  unfold Order.ownRecords
  rw [List.mem_map]
  constructor
  · rintro ⟨⟨r, j⟩, h1, rfl⟩
    obtain ⟨h1, h2⟩ := List.mem_filter.1 h1
    rw [List.mk_mem_zipIdx_iff_getElem?] at h1
    have := (List.getElem?_eq_some_iff.1 h1).1
    refine ⟨j, ⟨r, h1, rfl⟩, of_decide_eq_true h2, ?_⟩
    show (pos + 1 + j) % 2 ^ 64 = _
    exact Nat.mod_eq_of_lt (by omega)
  · rintro ⟨j, ⟨r, h1, h2⟩, h3, h4⟩
    have := (List.getElem?_eq_some_iff.1 h1).1
    refine ⟨(r, j), List.mem_filter.2 ⟨List.mk_mem_zipIdx_iff_getElem?.2 h1, decide_eq_true ?_⟩, ?_⟩
    · rw [h2] at h3
      exact h3
    · refine Prod.ext h2.symm (Fin.ext ?_)
      show (pos + 1 + j) % 2 ^ 64 = _
      rw [Nat.mod_eq_of_lt (by omega), h4]

omit S in
theorem nodup_ownRecords {o : Order} {pos : ℕ} (small : pos + 1 + o.recipients.length ≤ 2 ^ 64) :
    (o.ownRecords k pos).Nodup := by
  unfold Order.ownRecords
  have nd : o.recipients.zipIdx.Nodup := by
    refine List.Nodup.of_map (fun r => r.2) ?_
    rw [List.zipIdx_map_snd]
    exact List.nodup_range'
  rw [List.nodup_map_iff_inj_on (nd.filter _)]
  rintro ⟨r, i⟩ h1 ⟨r', i'⟩ h2 e
  have h1 := List.mk_mem_zipIdx_iff_getElem?.1 (List.mem_filter.1 h1).1
  have h2 := List.mk_mem_zipIdx_iff_getElem?.1 (List.mem_filter.1 h2).1
  have l1 := (List.getElem?_eq_some_iff.1 h1).1
  have l2 := (List.getElem?_eq_some_iff.1 h2).1
  have hi : (pos + 1 + i) % 2 ^ 64 = (pos + 1 + i') % 2 ^ 64 := congrArg (fun x : RecordOpening × U64 => x.2.val) e
  rw [Nat.mod_eq_of_lt (by omega), Nat.mod_eq_of_lt (by omega)] at hi
  obtain rfl : i = i' := by omega
  rw [Option.some.inj (h1.symm.trans h2)]

omit S in
theorem total_ownRecords (o : Order) (pos : ℕ) :
    total ((o.ownRecords k pos).map (·.1)) + o.toOthers k = (o.recipients.map (·.2.val)).sum := by
  have split : ∀ (rs : List (UserPubKey × Amount)) (n : ℕ),
      total (((rs.zipIdx n).filter (fun r => r.1.1 = k.pubKey)).map (fun r =>
        (⟨r.1.2, AssetDefinition.native, r.1.1, .unfrozen, o.rng.blinds r.2⟩ : RecordOpening))) +
        ((rs.filter (fun r => r.1 ≠ k.pubKey)).map (·.2.val)).sum = (rs.map (·.2.val)).sum := by
    intro rs
    induction rs with
    | nil => intro n; rfl
    | cons r rs ih =>
      intro n
      have := ih (n + 1)
      by_cases hr : r.1 = k.pubKey
      · simp only [List.zipIdx_cons, List.filter_cons, hr, decide_true, if_true, List.map_cons, total_cons, ne_eq, not_true,
          decide_false, List.sum_cons, Bool.false_eq_true, if_false] at this ⊢
        omega
      · simp only [List.zipIdx_cons, List.filter_cons, hr, decide_true, if_true, List.map_cons, ne_eq, not_false_eq_true,
          decide_false, List.sum_cons, Bool.false_eq_true, if_false] at this ⊢
        omega
  have := split o.recipients 0
  unfold Order.ownRecords Order.toOthers
  rw [List.map_map]
  exact this

theorem Spec.Received.append {x : RecordOpening × U64} (r : Received k h x) : ∀ more : List Seen, Received k (h ++ more) x := by
  intro more
  induction more using List.reverseRecOn with
  | nil => rwa [List.append_nil]
  | append_singleton l e ih =>
    rw [← List.append_assoc]
    exact ih.mono e

theorem Spec.At.append {t : TransactionNote} {ms : List E.AeadCt} {pos : ℕ} (a : At h t ms pos) :
    ∀ more : List Seen, At (h ++ more) t ms pos := by
  intro more
  induction more using List.reverseRecOn with
  | nil => rwa [List.append_nil]
  | append_singleton l e ih =>
    rw [← List.append_assoc]
    exact ih.mono e

theorem Spec.Apart.prefix {more : List Seen} (apart : Apart k (h ++ more)) : Apart k h :=
  ⟨fun x y hx hy => apart.among x y (hx.append more) (hy.append more),
    fun x hx t ms pos a => apart.past x (hx.append more) t ms pos (a.append more)⟩

theorem Spec.Tidy.prefix {more : List Seen} {orders orders' : List Order} (tidy : Tidy k (h ++ more) orders)
    (sub : ∀ o ∈ orders', o ∈ orders) : Tidy k h orders' :=
  ⟨fun c c' h1 h2 => tidy.changes c c' (List.mem_append_left _ h1) (List.mem_append_left _ h2),
    fun o ho x hx => tidy.dummies o (sub o ho) x (hx.append more), fun o ho => tidy.memos o (sub o ho)⟩

theorem Spec.PaysInTurn.extends {orders : List Order} {h' : List Seen} (pays : PaysInTurn d b k h s w orders h' s' w') :
    ∃ more, h' = h ++ more := by
  induction pays with
  | done => exact ⟨[], (List.append_nil _).symm⟩
  | pay _ _ _ _ _ _ _ _ ih =>
    obtain ⟨more, e⟩ := ih
    exact ⟨_, by rw [e, List.append_assoc, List.append_assoc, List.append_assoc]⟩

/-- **The account of a settled payment.** -/
theorem C96_charge (world : World d b k h s w) {o : Order} {w1 w2 : Wallet} {coins : List (RecordOpening × U64)}
    {chg : RecordOpening} {blind : F} {who : UserPubKey} {time : U64} {uid : U64} {recv : List RecordOpening}
    (made : w.spendNative b d s o.rng o.recipients o.fee = .ok (w1, note, memos, sig))
    (payment : Payment k w o.rng o.recipients o.fee coins chg note memos)
    (begun : World d b k (h ++ coins.map .spending ++ [.expecting chg]) s w1)
    (valid : validateTxnsBatch d s [.transfer note] time = .ok ())
    (inserted : s.insertBlock d.val ⟨[.transfer note], blind, who⟩ = .ok s') (offset : uid.val = s.leaves.length)
    (scanned : w1.scanBlock b [.transfer note] [memos] uid = .ok (w2, recv))
    (apart : Apart k (h ++ coins.map .spending ++ [.expecting chg] ++ [.block [(.transfer note, memos)] blind who time]))
    (tidy : Tidy k (h ++ coins.map .spending ++ [.expecting chg] ++ [.block [(.transfer note, memos)] blind who time]) [o])
    {before after : List (RecordOpening × U64)} (hb : Coins w nativeCode before) (ha : Coins w2 nativeCode after) :
    total (after.map (·.1)) + o.toOthers k + o.fee.val = total (before.map (·.1)) := by
  classical
  have holds := C96_settled world made payment begun valid inserted offset scanned apart tidy
  have small : records h + 1 + o.recipients.length ≤ 2 ^ 64 := by
    obtain ⟨fee, -, e1, -, -, e4, -⟩ := LedgerState.insertBlock_ok inserted
    have hl := congrArg List.length e1
    rw [List.length_append, List.length_append, List.flatMap_cons, List.flatMap_nil, List.append_nil,
      (worldOk world).size] at hl
    have : (TransactionNote.transfer note).outputCommitments.length = o.recipients.length + 1 := payment.lengths.1
    omega
  have pos : records h < 2 ^ 64 := by omega
  have sub : ∀ x ∈ coins, x ∈ before := fun x hx => by
    obtain ⟨h1, h2⟩ := payment.held x hx
    exact (hb.2 x).2 ⟨h1, by rw [h2]; rfl⟩
  have perm1 : (coins ++ before.filter (fun x => decide (x ∉ coins))).Perm before := by
    rw [List.perm_ext_iff_of_nodup _ hb.1]
    · intro x
      rw [List.mem_append, List.mem_filter, decide_eq_true_iff]
      exact ⟨fun h => h.elim (sub x) (·.1), fun h => (em (x ∈ coins)).imp id (fun h' => ⟨h, h'⟩)⟩
    · rw [List.nodup_append]
      refine ⟨payment.once, hb.1.filter _, fun x hx y hy e => ?_⟩
      rw [List.mem_filter, decide_eq_true_iff] at hy
      exact hy.2 (e ▸ hx)
  have perm2 : (before.filter (fun x => decide (x ∉ coins)) ++ (chg, ⟨records h, pos⟩) :: o.ownRecords k (records h)).Perm
      after := by
    rw [List.perm_ext_iff_of_nodup _ ha.1]
    · intro x
      rw [List.mem_append, List.mem_filter, decide_eq_true_iff, List.mem_cons, mem_ownRecords small, ha.2, holds, hb.2]
      constructor
      · rintro (⟨⟨h1, h2⟩, h3⟩ | rfl | ⟨j, h1, h2⟩)
        · exact ⟨.inl ⟨h1, h3⟩, h2⟩
        · exact ⟨.inr (.inl ⟨rfl, rfl⟩), by rw [payment.change.1]; rfl⟩
        · refine ⟨.inr (.inr ⟨j, h1, h2⟩), ?_⟩
          obtain ⟨r, -, e⟩ := h1
          rw [e]
          rfl
      · rintro ⟨⟨h1, h3⟩ | ⟨h1, h2⟩ | h1, h4⟩
        · exact .inl ⟨⟨h1, h4⟩, h3⟩
        · exact .inr (.inl (Prod.ext h1 (Fin.ext h2)))
        · exact .inr (.inr h1)
    · rw [List.nodup_append, List.nodup_cons]
      refine ⟨hb.1.filter _, ⟨fun hm => ?_, nodup_ownRecords small⟩, fun x hx y hy e => ?_⟩
      · obtain ⟨j, -, -, hp⟩ := (mem_ownRecords small _).1 hm
        dsimp only at hp
        omega
      · subst e
        have h1 := held_before world ((hb.2 x).1 (List.mem_filter.1 hx).1).1
        rcases List.mem_cons.1 hy with rfl | hy
        · exact absurd h1 (lt_irrefl _)
        · obtain ⟨j, -, -, hp⟩ := (mem_ownRecords small _).1 hy
          omega
  have t1' : total (before.map (·.1)) = total (coins.map (·.1)) +
      total ((before.filter (fun x => decide (x ∉ coins))).map (·.1)) := by
    rw [← total_append, ← List.map_append]
    exact (total_perm perm1).symm
  have t2' : total (after.map (·.1)) = total ((before.filter (fun x => decide (x ∉ coins))).map (·.1)) +
      (chg.amount.val + total ((o.ownRecords k (records h)).map (·.1))) := by
    rw [← total_cons, ← List.map_cons (f := fun x : RecordOpening × U64 => x.1) (a := (chg, ⟨records h, pos⟩)), ← total_append,
      ← List.map_append]
    exact (total_perm perm2).symm
  have := payment.value
  have := total_ownRecords (k := k) o (records h)
  omega

/-- what some orders cost the owner of `k` -/
def Spec.cost (k : UserKeyPair) (orders : List Order) : ℕ := (orders.map (fun o => o.toOthers k + o.fee.val)).sum

/-- **The account of any number of payments.** -/
theorem C96_account {orders : List Order} {h' : List Seen} (pays : PaysInTurn d b k h s w orders h' s' w') :
    World d b k h s w → Apart k h' → Tidy k h' orders →
    ∀ {before after : List (RecordOpening × U64)}, Coins w nativeCode before → Coins w' nativeCode after →
    total (after.map (·.1)) + cost k orders = total (before.map (·.1)) := by
  induction pays with
  | done =>
    intro _ _ _ before after hb ha
    have perm : after.Perm before := (List.perm_ext_iff_of_nodup ha.1 hb.1).2 (fun x => (ha.2 x).trans (hb.2 x).symm)
    exact ((perm.map _).map _).sum_eq
  | pay made payment begun valid inserted offset scanned rest ih =>
    intro world apart tidy before after hb ha
    rename_i h s w w1 s1 w2 note memos sig coins chg blind who time uid recv o orders h' s' w'
    have world2 := World.block (txns := [(.transfer note, memos)]) (time := time) begun valid inserted offset scanned
    obtain ⟨more, e⟩ := rest.extends
    obtain ⟨nd, mem⟩ := (worldOk world2).ok.get nativeCode
    have h1 := ih world2 apart ⟨tidy.changes, fun o ho => tidy.dummies o (List.mem_cons_of_mem _ ho),
      fun o ho => tidy.memos o (List.mem_cons_of_mem _ ho)⟩ ⟨nd, mem⟩ ha
    have h2 := C96_charge world made payment begun valid inserted offset scanned (by rw [e] at apart; exact apart.prefix)
      (by rw [e] at tidy; exact tidy.prefix (by simp)) hb ⟨nd, mem⟩
    unfold cost at h1 ⊢
    rw [List.map_cons, List.sum_cons]
    omega

theorem Spec.PaysInTurn.world {orders : List Order} {h' : List Seen} (pays : PaysInTurn d b k h s w orders h' s' w') :
    World d b k h s w → World d b k h' s' w' := by
  induction pays with
  | done => exact id
  | pay made payment begun valid inserted offset scanned rest ih =>
    rename_i h s w w1 s1 w2 note memos sig coins chg blind who time uid recv o orders h' s' w'
    exact fun _ => ih (World.block (txns := [(.transfer note, memos)]) (time := time) begun valid inserted offset scanned)

/-- what has the code of the native asset stays genuine -/
theorem PaysInTurn_genuine {orders : List Order} {h' : List Seen} (pays : PaysInTurn d b k h s w orders h' s' w') :
    World d b k h s w → Apart k h' → Tidy k h' orders →
    (∀ x, w.Holds x → x.1.asset_def.code = nativeCode → x.1.asset_def = AssetDefinition.native) →
    ∀ x, w'.Holds x → x.1.asset_def.code = nativeCode → x.1.asset_def = AssetDefinition.native := by
  induction pays with
  | done => exact fun _ _ _ h => h
  | pay made payment begun valid inserted offset scanned rest ih =>
    intro world apart tidy genuine
    rename_i h s w w1 s1 w2 note memos sig coins chg blind who time uid recv o orders h' s' w'
    have world2 := World.block (txns := [(.transfer note, memos)]) (time := time) begun valid inserted offset scanned
    obtain ⟨more, e⟩ := rest.extends
    refine ih world2 apart ⟨tidy.changes, fun o ho => tidy.dummies o (List.mem_cons_of_mem _ ho),
      fun o ho => tidy.memos o (List.mem_cons_of_mem _ ho)⟩ (fun x hx hc => ?_)
    rcases (C96_settled world made payment begun valid inserted offset scanned (by rw [e] at apart; exact apart.prefix)
      (by rw [e] at tidy; exact tidy.prefix (by simp)) x).1 hx with ⟨h1, -⟩ | ⟨h1, -⟩ | ⟨j, ⟨r, -, h1⟩, -⟩
    · exact genuine x h1 hc
    · rw [h1]
      exact payment.change.1
    · rw [h1]

/-- **The next payment can be made**, as long as what was held at the beginning covers it together with those made. -/
theorem C96_next_partial (complete : SnarkComplete) (batch : SnarkBatch) {orders : List Order} {h' : List Seen}
    (pays : PaysInTurn d b k h s w orders h' s' w') (world : World d b k h s w) (apart : Apart k h') (tidy : Tidy k h' orders)
    (genuine : ∀ x, w.Holds x → x.1.asset_def.code = nativeCode → x.1.asset_def = AssetDefinition.native)
    {before : List (RecordOpening × U64)} (all : Coins w nativeCode before) (small : total (before.map (·.1)) < 2 ^ 127)
    {o : Order} (recip : o.recipients ≠ [])
    (covers : cost k orders + (o.recipients.map (·.2.val)).sum + o.fee.val ≤ total (before.map (·.1)))
    (positive : 0 < (o.recipients.map (·.2.val)).sum + o.fee.val)
    (keys : ∀ coins, Coins w' nativeCode coins → ∀ n, 2 ≤ n → n ≤ coins.length + 1 →
      ∃ x, transferPreprocess n (o.recipients.length + 1) d = .ok x)
    (encrypts : ∀ j ro, paid o.rng AssetDefinition.native o.recipients j ro →
      ∃ c, ReceiverMemo.fromRo (o.rng.memos j) ro [] = .ok c)
    (dummy : dummyNullifier o.rng ∉ s'.nullifiers ∧ ∀ x, w'.Holds x → ownNullifier k x ≠ dummyNullifier o.rng) :
    ∃ w'' note memos sig, w'.spendNative b d s' o.rng o.recipients o.fee = .ok (w'', note, memos, sig) ∧
      note.aux_info.fee = o.fee ∧ TransactionNote.verifyReceiverMemosSignature (.transfer note) memos sig = .ok () ∧
      ∀ time : U64, time.val < 2 ^ 20 → validateTxnsBatch d s' [.transfer note] time = .ok () := by
  have world' := pays.world world
  obtain ⟨nd, mem⟩ := (worldOk world').ok.get nativeCode
  have acc := C96_account pays world apart tidy all ⟨nd, mem⟩
  refine C61_pays_partial complete batch world' apart (PaysInTurn_genuine pays world apart tidy genuine) nd mem ?_ (by omega)
    recip (by omega) (keys _ ⟨nd, mem⟩) encrypts dummy
  intro e
  rw [e] at acc
  change 0 + _ = _ at acc
  omega

/-- **A payment that was made can be carried on with**: if it is accepted, there is room in the tree, and the block is
scanned, the wallet is in the next state of the sequence. -/
theorem C96_goes_on (world : World d b k h s w) {o : Order} {w1 : Wallet} {time : U64}
    (made : w.spendNative b d s o.rng o.recipients o.fee = .ok (w1, note, memos, sig))
    (valid : validateTxnsBatch d s [.transfer note] time = .ok ())
    (room : Room d.val s (o.recipients.length + 2)) (blind : F) (who : UserPubKey) :
    ∃ h' s' w', PaysInTurn d b k h s w [o] h' s' w' ∧ World d b k h' s' w' := by
  obtain ⟨coins, chg, pay, -, begun, -⟩ := C61_payment world made
  have i := worldOk world
  have hins := (C52_partial (d := d.val) (b := ⟨[.transfer note], blind, who⟩) (s := s) ⟨i.room, i.small⟩).1.2 ⟨by
      show Room d.val s ((note.output_commitments.length + 0) + 1)
      rw [pay.lengths.1]
      exact room, by
      show note.aux_info.fee.val + 0 < _
      exact note.aux_info.fee.isLt⟩
  have hs := C52_same.2 (Prod.ext rfl hins)
  obtain ⟨w2, recv, scanned, world2⟩ := C59_scans (uid := ⟨s.leaves.length, i.small⟩) begun (txns := [(.transfer note, memos)])
    (time := time) valid hs rfl (by
      intro t ht
      obtain rfl := List.mem_singleton.1 ht
      show note.output_commitments.length = memos.length + 1
      rw [pay.lengths.1, pay.lengths.2])
  exact ⟨_, _, w2, .pay made pay begun valid hs rfl scanned .done, world2⟩

theorem Spec.PaysInTurn.trans {orders more : List Order} {h1 h2 : List Seen} {s1 s2 : LedgerState} {w1 w2 : Wallet}
    (first : PaysInTurn d b k h s w orders h1 s1 w1) (then_ : PaysInTurn d b k h1 s1 w1 more h2 s2 w2) :
    PaysInTurn d b k h s w (orders ++ more) h2 s2 w2 := by
  induction first with
  | done => exact then_
  | pay made payment begun valid inserted offset scanned rest ih =>
    exact .pay made payment begun valid inserted offset scanned (ih then_)

/-- What the next order has to find when it is its turn: keys of the size needed, memos that can be written, a dummy that is
fresh, and room in the tree.  It pays somebody, and not just zeros. -/
structure Spec.CanPay (d : Fin 256) (k : UserKeyPair) (s : LedgerState) (w : Wallet) (o : Order) : Prop where
  recip : o.recipients ≠ []
  positive : 0 < (o.recipients.map (·.2.val)).sum + o.fee.val
  keys : ∀ coins, Coins w nativeCode coins → ∀ n, 2 ≤ n → n ≤ coins.length + 1 →
    ∃ x, transferPreprocess n (o.recipients.length + 1) d = .ok x
  encrypts : ∀ j ro, paid o.rng AssetDefinition.native o.recipients j ro →
    ∃ c, ReceiverMemo.fromRo (o.rng.memos j) ro [] = .ok c
  dummy : dummyNullifier o.rng ∉ s.nullifiers ∧ ∀ x, w.Holds x → ownNullifier k x ≠ dummyNullifier o.rng
  room : Room d.val s (o.recipients.length + 2)

/-- **All payments can be made, one after the other**, that the records held at the beginning cover. -/
theorem C96_all_partial (complete : SnarkComplete) (batch : SnarkBatch) (world : World d b k h s w)
    (genuine : ∀ x, w.Holds x → x.1.asset_def.code = nativeCode → x.1.asset_def = AssetDefinition.native)
    {before : List (RecordOpening × U64)} (all : Coins w nativeCode before) (small : total (before.map (·.1)) < 2 ^ 127)
    (orders : List Order)
    (covers : ∀ done o rest, orders = done ++ o :: rest →
      cost k done + (o.recipients.map (·.2.val)).sum + o.fee.val ≤ total (before.map (·.1)))
    (fine : ∀ done o rest h1 s1 w1, orders = done ++ o :: rest → PaysInTurn d b k h s w done h1 s1 w1 →
      Apart k h1 ∧ Tidy k h1 done ∧ CanPay d k s1 w1 o) :
    ∃ h' s' w', PaysInTurn d b k h s w orders h' s' w' := by
  induction orders using List.reverseRecOn with
  | nil => exact ⟨h, s, w, .done⟩
  | append_singleton done o ih =>
    obtain ⟨h1, s1, w1, pays⟩ := ih (fun l o' r e => covers l o' (r ++ [o]) (by rw [e]; simp))
      (fun l o' r h1 s1 w1 e => fine l o' (r ++ [o]) h1 s1 w1 (by rw [e]; simp))
    obtain ⟨apart, tidy, can⟩ := fine done o [] h1 s1 w1 rfl pays
    obtain ⟨w2, note, memos, sig, made, -, -, valid⟩ := C96_next_partial complete batch pays world apart tidy genuine all small
      can.recip (covers done o [] rfl) can.positive can.keys can.encrypts can.dummy
    obtain ⟨h', s', w', last, -⟩ := C96_goes_on (pays.world world) made (valid 0 (by decide)) can.room 0 k.pubKey
    exact ⟨h', s', w', pays.trans last⟩

end Cap

namespace Cap.Examples

open Toy Spec

/-! Alice has a native coin worth 100.  She pays 60 to Bob; when the payment is settled she pays 20 to Bob and 5 to herself.
The fee is 3 each time. -/

def order96 : Order := ⟨payRng, [(bob.pubKey, 60)], 3⟩

/-- the randomness of the second payment -/
def payRng96 : PaymentRand :=
  { dummy_key := bob, dummy_blind := (81 : ZMod p), blinds := fun j => ((82 + j : ℕ) : ZMod p), chg_blind := (80 : ZMod p),
    note := rng, memos := fun j => j }

def next96 : Order := ⟨payRng96, [(bob.pubKey, 20), (alice.pubKey, 5)], 3⟩

/-- the history before the payments, and when the first one has begun -/
def seen96 : List Seen := seen0 ++ [.told feeRec 0]
def begun96 : List Seen := seen96 ++ [(feeRec, 0)].map .spending ++ [.expecting chgA]

theorem dummies96 : (dummyNullifier payRng ∉ ([(feeRec, (0 : U64)), (chgA, 2)] : List (RecordOpening × U64)).map (ownNullifier alice)) ∧
    (dummyNullifier payRng96 ∉ ([(feeRec, (0 : U64)), (chgA, 2)] : List (RecordOpening × U64)).map (ownNullifier alice)) ∧
    dummyNullifier payRng96 ≠ dummyNullifier payRng := by decide +kernel

/-- the first payment is what it has to be -/
theorem is_first96 {coins : List (RecordOpening × U64)} {chg : RecordOpening} {note : TransferNote} {memos : List Toy.E.AeadCt}
    (pay : Payment alice walletA payRng [(bob.pubKey, 60)] 3 coins chg note memos) : coins = [(feeRec, 0)] ∧ chg = chgA := by
  have hc : coins = [(feeRec, 0)] := by
    have hall : ∀ x ∈ coins, x = (feeRec, 0) := fun x hx => (walletA_holds x).1 (pay.held x hx).1
    have := pay.once
    match coins, pay.some_coin with
    | [x], _ => rw [hall x List.mem_cons_self]
    | x :: y :: l, _ =>
      exfalso
      rw [hall x List.mem_cons_self, hall y (by simp), List.nodup_cons] at this
      exact this.1 List.mem_cons_self
  refine ⟨hc, ?_⟩
  have hv := pay.value
  rw [hc] at hv
  change 100 + 0 = 60 + 0 + chg.amount.val + 3 at hv
  have ha : chg.amount = 37 := Fin.ext (show chg.amount.val = 37 by omega)
  obtain ⟨c1, c2, c3, c4⟩ := pay.change
  obtain ⟨a, ad, pk, ff, bl⟩ := chg
  dsimp only at ha c1 c2 c3 c4
  subst ha c1 c2 c3 c4
  rfl

/-- what Alice is told of when the first payment is settled -/
theorem received96 {note : TransferNote} {memos : List Toy.E.AeadCt}
    (pay : Payment alice walletA payRng [(bob.pubKey, 60)] 3 [(feeRec, 0)] chgA note memos) (blind : F) (who : UserPubKey)
    (time : U64) :
    Apart alice (begun96 ++ [.block [(.transfer note, memos)] blind who time]) ∧
    Tidy alice (begun96 ++ [.block [(.transfer note, memos)] blind who time]) [order96] := by
  have hat : ∀ {t : TransactionNote} {m : List Toy.E.AeadCt} {pos : ℕ},
      At (begun96 ++ [.block [(.transfer note, memos)] blind who time]) t m pos →
      t = .transfer note ∧ m = memos ∧ pos = 2 := by
    intro t m pos a
    rcases a.cases with a | ⟨txns, blind, who, time, n, h1, h2, rfl⟩
    · exfalso
      obtain ⟨before, txns, blind, who, time, after, -, -, h1, -⟩ := a
      have : Seen.block txns blind who time ∈ begun96 := by rw [h1]; simp
      simp [begun96, seen96, seen0] at this
    · cases h1
      rcases h2.cases with ⟨h3, h4⟩ | ⟨m, -, h3⟩
      · cases h3
        exact ⟨rfl, rfl, by rw [h4]; rfl⟩
      · exact (nomatch h3.mem)
  have expects : ∀ {c : RecordOpening}, .expecting c ∈ begun96 ++ [.block [(.transfer note, memos)] blind who time] → c = chgA := by
    intro c hc
    rcases List.mem_append.1 hc with hc | hc
    · rcases List.mem_append.1 hc with hc | hc
      · simp [seen96, seen0] at hc
      · cases List.mem_singleton.1 hc
        rfl
    · simp at hc
  have hr : ∀ x, Received alice (begun96 ++ [.block [(.transfer note, memos)] blind who time]) x →
      x ∈ [(feeRec, (0 : U64)), (chgA, 2)] := by
    intro x hx
    cases hx with
    | told mem =>
      simp only [begun96, seen96, seen0, List.cons_append, List.nil_append, List.mem_cons, List.not_mem_nil, or_false, reduceCtorEq,
        false_or, Seen.told.injEq, List.map_cons, List.map_nil] at mem
      rw [mem.1, mem.2]
      exact List.mem_cons_self
    | memo a o m op p =>
      rename_i t ms pos j rc c ro uid
      obtain ⟨e1, e2, -⟩ := hat a
      rw [e1] at o
      rw [e2] at m
      have hj : j = 0 := by
        have := (List.getElem?_eq_some_iff.1 m).1
        rw [pay.lengths.2] at this
        simp only [List.length_cons, List.length_nil] at this
        omega
      subst hj
      obtain ⟨g1, c', g2, g3⟩ := pay.rest 0 bobs60 ⟨_, rfl, by decide +kernel⟩
      rw [g2] at m
      cases m
      have g1' : (TransactionNote.transfer note).outputCommitments[0 + 1]? = some bobs60.commitment := g1
      rw [g1'] at o
      rw [← Option.some.inj o] at op
      have := bobs60_alice
      rw [show ReceiverMemo.fromRo 0 bobs60 [] = _ from g3] at this
      dsimp only at this
      rw [op] at this
      cases this
    | change wt a o p =>
      rename_i t ms pos chg uid
      obtain ⟨-, -, e3⟩ := hat a
      rw [e3] at p
      rw [expects wt, show uid = 2 from Fin.ext p]
      simp
  refine ⟨⟨fun x y hx hy hn => List.inj_on_of_nodup_map chgA_nullifiers (hr x hx) (hr y hy) hn, fun x hx t m pos a hp => ?_⟩,
    ⟨fun c c' h1 h2 _ => by rw [expects h1, expects h2], fun o ho x hx e => ?_, fun o ho j ro c ro' hp h1 h2 => ?_⟩⟩
  · exfalso
    have h1 := hr x hx
    have : x.2.val ≤ 2 := by
      simp only [List.mem_cons, List.not_mem_nil, or_false] at h1
      rcases h1 with rfl | rfl <;> decide
    obtain ⟨rfl, -, rfl⟩ := hat a
    have hl : (TransactionNote.transfer note).outputCommitments.length = 2 := pay.lengths.1
    omega
  · obtain rfl := List.mem_singleton.1 ho
    refine dummies96.1 ?_
    show dummyNullifier order96.rng ∈ _
    rw [← e]
    exact List.mem_map_of_mem (hr x hx)
  · obtain rfl := List.mem_singleton.1 ho
    exfalso
    obtain ⟨r, hr1, hr2⟩ := hp
    have hj : j = 0 := by
      have := (List.getElem?_eq_some_iff.1 hr1).1
      simp only [order96, List.length_cons, List.length_nil] at this
      omega
    subst hj
    have e : ro = bobs60 := by
      rw [hr2, ← Option.some.inj hr1]
      decide +kernel
    rw [e] at h1 h2
    have := bobs60_alice
    rw [show ReceiverMemo.fromRo 0 bobs60 [] = _ from h1] at this
    dsimp only at this
    rw [h2] at this
    cases this

theorem coins96 : Coins walletA nativeCode [(feeRec, 0)] := by
  refine ⟨by simp, fun x => ?_⟩
  rw [List.mem_singleton, walletA_holds]
  exact ⟨fun h => ⟨h, by rw [h]; rfl⟩, fun h => h.1⟩

/-- when the first payment is settled: nothing coincides, 37 are left in one record, and there is room for the next block -/
theorem settled96 {h1 : List Seen} {s1 : LedgerState} {w1 : Wallet}
    (run : PaysInTurn 2 .debug alice seen96 led0 walletA [order96] h1 s1 w1) :
    Apart alice h1 ∧ Tidy alice h1 [order96] ∧ (∀ x, w1.Holds x ↔ x = (chgA, 2)) ∧ s1.leaves.length = 5 ∧
      dummyNullifier payRng96 ∉ s1.nullifiers := by
  cases run with
  | pay made payment begun valid inserted offset scanned rest =>
    obtain ⟨rfl, rfl⟩ := is_first96 payment
    cases rest
    rename_i note memos sig blind who time uid recv
    obtain ⟨apart, tidy⟩ := received96 payment blind who time
    refine ⟨apart, tidy, fun x => ?_, ?_, ?_⟩
    · rw [C96_settled worldA made payment begun valid inserted offset scanned apart tidy x, walletA_holds]
      constructor
      · rintro (⟨h1, h2⟩ | ⟨h1, h2⟩ | ⟨j, ⟨r, h1, h2⟩, h3, -⟩)
        · exact absurd (List.mem_singleton.2 h1) h2
        · exact Prod.ext h1 (Fin.ext h2)
        · exfalso
          have := List.mem_of_getElem? h1
          rw [show order96.recipients = [(bob.pubKey, 60)] from rfl, List.mem_singleton] at this
          rw [h2, this] at h3
          exact absurd h3 (show bob.pubKey ≠ alice.pubKey by decide +kernel)
      · rintro rfl
        exact .inr (.inl ⟨rfl, rfl⟩)
    · obtain ⟨fee, -, e1, -⟩ := LedgerState.insertBlock_ok inserted
      have hl : (TransactionNote.transfer note).outputCommitments.length = 2 := payment.lengths.1
      rw [e1, List.length_append, List.length_append, List.flatMap_cons, List.flatMap_nil, List.append_nil, hl]
      rfl
    · obtain ⟨fee, -, -, -, e3, -⟩ := LedgerState.insertBlock_ok inserted
      rw [e3]
      rintro (hm | hm)
      · rw [List.flatMap_cons, List.flatMap_nil, List.append_nil, show (TransactionNote.transfer note).nullifiers = _ from
          payment.nullifiers] at hm
        rcases List.mem_append.1 hm with hm | hm
        · exact dummies96.2.1 (List.mem_of_mem_take (i := 1) hm)
        · exact dummies96.2.2 (List.mem_singleton.1 hm)
      · exact (nomatch hm)

/-- Both payments can be made in turn. -/
example : ∃ h' s' w', PaysInTurn 2 .debug alice seen96 led0 walletA [order96, next96] h' s' w' := by
  refine C96_all_partial Toy.complete Toy.batch worldA ?_ coins96 ?_ _ ?_ ?_
  · intro x hx _
    rw [(walletA_holds x).1 hx]
    rfl
  · show (100 : ℕ) + 0 < 2 ^ 127
    norm_num
  · intro done o rest e
    match done, e with
    | [], e =>
      obtain ⟨rfl, -⟩ := List.cons.inj e
      decide +kernel
    | [first], e =>
      obtain ⟨e1, e2⟩ := List.cons.inj e
      obtain ⟨rfl, -⟩ := List.cons.inj e2
      obtain rfl : first = order96 := e1.symm
      decide +kernel
    | _ :: _ :: l, e => simp at e
  · intro done o rest h1 s1 w1 e run
    match done, e with
    | [], e =>
      obtain ⟨rfl, -⟩ := List.cons.inj e
      cases run
      refine ⟨by simpa using coin_only (more := []) (by simp), ⟨fun c c' h => ?_, fun _ h => (nomatch h), fun _ h => (nomatch h)⟩,
        by simp [order96], by decide, fun coins hc n h1 h2 => ?_, ?_, ⟨by simp [led0], fun x hx => ?_⟩, by
          exact ⟨by decide, by decide⟩⟩
      · simp [seen96, seen0] at h
      · have : coins.Perm [(feeRec, 0)] := (List.perm_ext_iff_of_nodup hc.1 coins96.1).2 (fun x => (hc.2 x).trans (coins96.2 x).symm)
        have := this.length_eq
        simp only [List.length_cons, List.length_nil] at this
        obtain rfl : n = 2 := by omega
        exact ⟨_, rfl⟩
      · rintro j ro ⟨r, hr, rfl⟩
        refine toyMemo _ _ _ _ ?_
        have := List.mem_of_getElem? hr
        rw [show order96.recipients = [(bob.pubKey, 60)] from rfl, List.mem_singleton] at this
        rw [this]
      · rw [(walletA_holds x).1 hx]
        exact dummy_apart
    | [first], e =>
      obtain ⟨e1, e2⟩ := List.cons.inj e
      obtain ⟨rfl, -⟩ := List.cons.inj e2
      obtain rfl : first = order96 := e1.symm
      obtain ⟨apart, tidy, holds, len, fresh⟩ := settled96 run
      refine ⟨apart, tidy, by simp [next96], by decide, fun coins hc n h1 h2 => ?_, ?_, ⟨fresh, fun x hx => ?_⟩, ?_⟩
      · have hl : coins.length ≤ 1 := by
          refine (List.Nodup.subperm hc.1 (l₂ := [(chgA, 2)]) (fun x hx => ?_)).length_le
          exact List.mem_singleton.2 ((holds x).1 ((hc.2 x).1 hx).1)
        obtain rfl : n = 2 := by omega
        exact ⟨_, rfl⟩
      · rintro j ro ⟨r, hr, rfl⟩
        have := List.mem_of_getElem? hr
        rw [show next96.recipients = [(bob.pubKey, 20), (alice.pubKey, 5)] from rfl] at this
        simp only [List.mem_cons, List.not_mem_nil, or_false] at this
        rcases this with rfl | rfl <;> exact ⟨_, rfl⟩
      · rw [(holds x).1 hx]
        intro e
        exact dummies96.2.1 (by rw [show dummyNullifier payRng96 = _ from e.symm]; exact List.mem_map_of_mem (by simp))
      · unfold Room
        rw [len]
        exact ⟨by decide, by decide⟩
    | _ :: _ :: l, e => simp at e

/-- The account after the first payment: 37 are left, of the 100 there were. -/
example {h1 : List Seen} {s1 : LedgerState} {w1 : Wallet}
    (run : PaysInTurn 2 .debug alice seen96 led0 walletA [order96] h1 s1 w1) {after : List (RecordOpening × U64)}
    (ha : Coins w1 nativeCode after) : total (after.map (·.1)) + 63 = 100 := by
  obtain ⟨apart, tidy, -⟩ := settled96 run
  have := C96_account run worldA apart tidy coins96 ha
  rw [show cost alice [order96] = 63 by decide +kernel] at this
  exact this

/-- What the block with the first payment does to the account: the coin goes. -/
example {note : TransferNote} {memos : List Toy.E.AeadCt} {blind : F} {who : UserPubKey} {time : U64} {w1 w2 : Wallet}
    {s1 : LedgerState} {recv : List RecordOpening}
    (pay : Payment alice walletA payRng [(bob.pubKey, 60)] 3 [(feeRec, 0)] chgA note memos)
    (begun : World 2 .debug alice begun96 led0 w1) (same : ∀ x, w1.Holds x ↔ walletA.Holds x)
    (valid : validateTxnsBatch 2 led0 [.transfer note] time = .ok ())
    (inserted : led0.insertBlock 2 ⟨[.transfer note], blind, who⟩ = .ok s1)
    (scanned : w1.scanBlock .debug [.transfer note] [memos] 2 = .ok (w2, recv)) {after : List (RecordOpening × U64)}
    (ha : Coins w2 nativeCode after) :
    ∃ went came : List (RecordOpening × U64), (feeRec, 0) ∈ went ∧
      total (after.map (·.1)) + total (went.map (·.1)) = 100 + total (came.map (·.1)) := by
  obtain ⟨went, came, -, -, h1, -, -, h2⟩ := C96_statement (txns := [(.transfer note, memos)]) begun valid inserted rfl scanned
    (received96 pay blind who time).1 (before := [(feeRec, 0)]) (code := nativeCode)
    ⟨by simp, fun x => by rw [coins96.2, same]⟩ ha
  refine ⟨went, came, (h1 _).2 ⟨List.mem_cons_self, _, List.mem_cons_self, ?_⟩, h2⟩
  show _ ∈ note.inputs_nullifiers
  rw [pay.nullifiers]
  exact List.mem_append_left _ (List.mem_map_of_mem List.mem_cons_self)

end Cap.Examples
