/-
C99: payments in several assets are booked to the right accounts.

status: partial
note: C96 for payments in any assets, mixed. C99_settled: after the block with a payment of its own, in the native or another asset, the wallet holds what it held without the coins spent, the change in the native asset, and what was paid to itself, and nothing else. C99_charge, C99_account: after any number of payments in any assets, each waited for, the account of every asset is lower by exactly the amounts of it that were paid to others, the native one also by the fees, and no other one changes. C99_next_partial, C99_goes_on: the next payment in another asset is made, accepted until the credential of the wallet expires, and can be settled, as long as what was held of the asset at the beginning covers it and one native record covers the fee. FALSE that the balances suffice: C99_scattered_false: if every single native record is below the fee, no payment in another asset is made, whatever they are worth together. Partial: totals below 2^127, policies and keys as in C62; completeness of the SNARK is assumed.
-/
import Verif.Props.C62
import Verif.Props.C96

namespace Cap

open Spec

variable [E : CapEnv]

/-- An order to pay in any asset: `none` is the native one. -/
structure Spec.Deal where
  rng : PaymentRand
  asset : Option AssetDefinition
  recipients : List (UserPubKey × Amount)
  fee : Amount

/-- the definition of the records that are paid -/
def Spec.Deal.definition (o : Deal) : AssetDefinition := o.asset.getD AssetDefinition.native

/-- what a deal pays to others than the owner of `k` -/
def Spec.Deal.toOthers (o : Deal) (k : UserKeyPair) : ℕ :=
  ((o.recipients.filter (fun r => r.1 ≠ k.pubKey)).map (·.2.val)).sum

/-- what a deal takes from the account of an asset: from the one that is paid the amounts paid to others, and from the native
one the fee -/
def Spec.Deal.charge (o : Deal) (k : UserKeyPair) (code : AssetCode) : ℕ :=
  (if code = o.definition.code then o.toOthers k else 0) + if code = nativeCode then o.fee.val else 0

variable [S : CapExt]

/-- What native and other payments have in common: the coins spent, the change of the native asset, the people paid. -/
structure Spec.Sent (k : UserKeyPair) (w : Wallet) (rng : PaymentRand) (ad : AssetDefinition)
    (people : List (UserPubKey × Amount)) (coins : List (RecordOpening × U64)) (chg : RecordOpening) (note : TransferNote)
    (memos : List E.AeadCt) : Prop where
  once : coins.Nodup
  held : ∀ x ∈ coins, w.Holds x
  change : chg.asset_def = AssetDefinition.native
  nullifiers : note.inputs_nullifiers = coins.map (ownNullifier k) ++ [dummyNullifier rng]
  first : note.output_commitments[0]? = some chg.commitment
  rest : ∀ j ro, paid rng ad people j ro → note.output_commitments[j + 1]? = some ro.commitment ∧
    ∃ c, memos[j]? = some c ∧ ReceiverMemo.fromRo (rng.memos j) ro [] = .ok c
  lengths : note.output_commitments.length = people.length + 1 ∧ memos.length = people.length

/-- The wallet `w`, after `h`, makes this payment and becomes `w1`: who is paid (the recipients, and in another asset the
wallet itself if something is left), the coins it gives away, the change it waits for, and what is published. -/
inductive Spec.Makes (d : Fin 256) (b : Build) (k : UserKeyPair) (s : LedgerState) (w w1 : Wallet) :
    Deal → List (UserPubKey × Amount) → List (RecordOpening × U64) → RecordOpening → TransferNote → List E.AeadCt → Prop
  | native {rng recipients fee coins chg note memos sig}
      (made : w.spendNative b d s rng recipients fee = .ok (w1, note, memos, sig))
      (payment : Payment k w rng recipients fee coins chg note memos) :
      Makes d b k s w w1 ⟨rng, none, recipients, fee⟩ recipients coins chg note memos
  | asset {rng ad recipients fee coin coins own chg note memos sig}
      (code : ad.code ≠ nativeCode ∧ ad.code ≠ dummyCode)
      (made : w.spendNonNative b d s rng ad recipients fee = .ok (w1, note, memos, sig))
      (payment : AssetSent k w rng ad recipients fee coin coins own chg note memos) :
      Makes d b k s w w1 ⟨rng, some ad, recipients, fee⟩ (w.everyone recipients own) (coin :: coins) chg note memos

/-- The wallet makes these payments, and waits after each until it has scanned a block with it. -/
inductive Spec.DealsInTurn (d : Fin 256) (b : Build) (k : UserKeyPair) : List Seen → LedgerState → Wallet → List Deal →
    List Seen → LedgerState → Wallet → Prop
  | done {h s w} : DealsInTurn d b k h s w [] h s w
  | pay {h s w w1 s1 w2 note memos people coins chg blind who time uid recv} {o : Deal} {orders h' s' w'}
      (makes : Makes d b k s w w1 o people coins chg note memos)
      (begun : World d b k (h ++ coins.map .spending ++ [.expecting chg]) s w1)
      (valid : validateTxnsBatch d s [.transfer note] time = .ok ())
      (inserted : s.insertBlock d.val ⟨[.transfer note], blind, who⟩ = .ok s1)
      (offset : (uid : U64).val = s.leaves.length)
      (scanned : w1.scanBlock b [.transfer note] [memos] uid = .ok (w2, recv))
      (rest : DealsInTurn d b k (h ++ coins.map .spending ++ [.expecting chg] ++
        [.block [(.transfer note, memos)] blind who time]) s1 w2 orders h' s' w') :
      DealsInTurn d b k h s w (o :: orders) h' s' w'

/-- Nothing of the history coincides by accident with what the deals draw (as `Tidy` in C96). -/
structure Spec.Neat (k : UserKeyPair) (h : List Seen) (orders : List Deal) : Prop where
  changes : ∀ c c', .expecting c ∈ h → .expecting c' ∈ h → c'.commitment = c.commitment → c' = c
  dummies : ∀ o ∈ orders, ∀ x, Received k h x → ownNullifier k x ≠ dummyNullifier o.rng
  memos : ∀ o ∈ orders, ∀ j ro c ro', paid o.rng o.definition o.recipients j ro →
    ReceiverMemo.fromRo (o.rng.memos j) ro [] = .ok c → ReceiverMemo.decrypt c k ro.commitment [] = .ok ro' → ro' = ro

variable {d : Fin 256} {b : Build} {k : UserKeyPair} {h : List Seen} {s s' : LedgerState} {w w' : Wallet}
  {rng : PaymentRand} {recipients people : List (UserPubKey × Amount)} {fee : Amount} {note : TransferNote}
  {memos : List E.AeadCt} {sig : E.Sig} {ad : AssetDefinition} {coins : List (RecordOpening × U64)} {chg : RecordOpening}

theorem Spec.Payment.sent (p : Payment k w rng recipients fee coins chg note memos) :
    Sent k w rng AssetDefinition.native recipients coins chg note memos :=
  ⟨p.once, fun x hx => (p.held x hx).1, p.change.1, p.nullifiers, p.first, p.rest, p.lengths⟩

theorem Spec.AssetSent.sent {coin : RecordOpening × U64} {own : Amount} (code : ad.code ≠ nativeCode)
    (p : AssetSent k w rng ad recipients fee coin coins own chg note memos) :
    Sent k w rng ad (w.everyone recipients own) (coin :: coins) chg note memos := by
  refine ⟨List.nodup_cons.2 ⟨fun hm => code ?_, p.once⟩, fun x hx => ?_, p.change.1, p.nullifiers, p.first, p.rest, p.lengths⟩
  · rw [← (p.held coin hm).2, p.fee_coin.2]
    rfl
  · rcases List.mem_cons.1 hx with rfl | hx
    · exact p.fee_coin.1
    · exact (p.held x hx).1

/-- **What a settled payment leaves**, for any kind of payment. -/
theorem sent_settled (world : World d b k h s w) {w1 w2 : Wallet} {blind : F} {who : UserPubKey} {time : U64} {uid : U64}
    {recv : List RecordOpening} (payment : Sent k w rng ad people coins chg note memos)
    (begun : World d b k (h ++ coins.map .spending ++ [.expecting chg]) s w1) (same : ∀ x, w1.Holds x ↔ w.Holds x)
    (valid : validateTxnsBatch d s [.transfer note] time = .ok ())
    (inserted : s.insertBlock d.val ⟨[.transfer note], blind, who⟩ = .ok s') (offset : uid.val = s.leaves.length)
    (scanned : w1.scanBlock b [.transfer note] [memos] uid = .ok (w2, recv))
    (apart : Apart k (h ++ coins.map .spending ++ [.expecting chg] ++ [.block [(.transfer note, memos)] blind who time]))
    (changes : ∀ c c', .expecting c ∈ h ++ coins.map .spending ++ [.expecting chg] ++
        [.block [(.transfer note, memos)] blind who time] →
      .expecting c' ∈ h ++ coins.map .spending ++ [.expecting chg] ++ [.block [(.transfer note, memos)] blind who time] →
      c'.commitment = c.commitment → c' = c)
    (dummies : ∀ x, Received k (h ++ coins.map .spending ++ [.expecting chg] ++
        [.block [(.transfer note, memos)] blind who time]) x → ownNullifier k x ≠ dummyNullifier rng)
    (opens : ∀ j ro c ro', paid rng ad people j ro →
      ReceiverMemo.fromRo (rng.memos j) ro [] = .ok c → ReceiverMemo.decrypt c k ro.commitment [] = .ok ro' → ro' = ro)
    (x : RecordOpening × U64) :
    w2.Holds x ↔ (w.Holds x ∧ x ∉ coins) ∨ (x.1 = chg ∧ x.2.val = records h) ∨
      ∃ j, paid rng ad people j x.1 ∧ x.1.pub_key = k.pubKey ∧ x.2.val = records h + 1 + j := by
  obtain ⟨f1, f2, f3, f4, f5⟩ := scan_facts (txns := [(.transfer note, memos)]) begun inserted offset scanned
  have world2 := World.block (txns := [(.transfer note, memos)]) (time := time) begun valid inserted offset scanned
  rw [records_begun] at f2 f3 f4
  set H := h ++ coins.map .spending ++ [.expecting chg] with hH
  have nulls : (TransactionNote.transfer note).nullifiers = coins.map (ownNullifier k) ++ [dummyNullifier rng] :=
    payment.nullifiers
  have only : ∀ {t ms n}, InList [(TransactionNote.transfer note, memos)] t ms n → t = .transfer note ∧ ms = memos ∧ n = 0 := by
    intro t ms n hi
    rcases hi.cases with ⟨h3, h4⟩ | ⟨m, -, h3⟩
    · cases h3
      exact ⟨rfl, rfl, h4⟩
    · exact (nomatch h3.mem)
  have coin_known : ∀ y ∈ coins, Received k (H ++ [.block [(.transfer note, memos)] blind who time]) y := fun y hy =>
    ((C59_sound begun y ((same y).2 (payment.held y hy))).1).mono _
  have unspent : ∀ x, Received k (H ++ [.block [(.transfer note, memos)] blind who time]) x →
      (∃ t ∈ [(TransactionNote.transfer note, memos)], ownNullifier k x ∈ t.1.nullifiers) → x ∈ coins := by
    rintro x hr ⟨t, ht, hx⟩
    obtain rfl := List.mem_singleton.1 ht
    rw [nulls] at hx
    rcases List.mem_append.1 hx with hx | hx
    · obtain ⟨y, hy, e⟩ := List.mem_map.1 hx
      rw [← apart.among y x (coin_known y hy) hr e]
      exact hy
    · exact absurd (List.mem_singleton.1 hx) (dummies x hr)
  have early : ∀ y ∈ coins, y.2.val < records h := fun y hy => held_before world (payment.held y hy)
  have here : ∀ {pos}, InList [(TransactionNote.transfer note, memos)] (.transfer note) memos pos →
      At (H ++ [.block [(.transfer note, memos)] blind who time]) (.transfer note) memos (records H + pos) := fun hi => .last hi
  have hrec : records H = records h := records_begun h coins chg
  have awaited : .expecting chg ∈ H ++ [.block [(.transfer note, memos)] blind who time] := by
    rw [hH]
    simp
  constructor
  · intro hx
    rcases f2 x hx with h1 | ⟨t, ms, n, hi, h2⟩
    · refine .inl ⟨(same x).1 h1, fun hc => ?_⟩
      refine C59_gone (more := []) world2 apart x (t := (.transfer note, memos)) List.mem_cons_self ?_ hx
      show _ ∈ (TransactionNote.transfer note).nullifiers
      rw [nulls]
      exact List.mem_append_left _ (List.mem_map_of_mem hc)
    · obtain ⟨rfl, rfl, rfl⟩ := only hi
      rcases h2 with ⟨hf, j, rc, c, h3, h4, h5, h6⟩ | ⟨h3, h4, h5⟩
      · have hj : j < people.length := by
          rw [← payment.lengths.2]
          exact (List.getElem?_eq_some_iff.1 h4).1
        obtain ⟨g1, c', g2, g3⟩ := payment.rest j _ ⟨_, List.getElem?_eq_getElem hj, rfl⟩
        have e1 := Option.some.inj (g2.symm.trans h4)
        have e2 := Option.some.inj (g1.symm.trans (show note.output_commitments[j + 1]? = some rc from h3))
        rw [← e1, ← e2] at h5
        have e3 := opens j _ c' x.1 ⟨_, List.getElem?_eq_getElem hj, rfl⟩ g3 h5
        refine .inr (.inr ⟨j, ⟨_, List.getElem?_eq_getElem hj, e3⟩, (C35_sound _ _ _ _ _ h5).1, by omega⟩)
      · refine .inr (.inl ⟨?_, by omega⟩)
        have h6 := ((worldOk begun).changes _ h3).1
        have e := Option.some.inj (h4.symm.trans (show (TransactionNote.transfer note).outputCommitments[0]? = _ from payment.first))
        exact changes chg x.1 awaited (List.mem_append_left _ h6) e
  · rintro (⟨h1, h2⟩ | ⟨h1, h2⟩ | ⟨j, h1, h2, h3⟩)
    · have hr := ((C59_sound begun x ((same x).2 h1)).1).mono (.block [(.transfer note, memos)] blind who time)
      exact (f1 x ((same x).2 h1)).resolve_right (fun hn => h2 (unspent x hr hn))
    · obtain ⟨ro, u⟩ := x
      dsimp only at h1 h2
      subst h1
      have hw := expecting_changes begun rfl
      rcases f4 ro hw with h3 | ⟨t, ms, n, u', hi, h3, h4⟩
      · exact absurd payment.first (f5 ro h3 (fun c' hc' e => changes ro c' awaited
          (List.mem_append_left _ ((worldOk begun).changes _ hc').1) e) _ List.mem_cons_self)
      · obtain ⟨rfl, rfl, rfl⟩ := only hi
        have hu : u' = u := Fin.ext (h3.2.2.trans h2.symm)
        subst hu
        refine h4.resolve_right (fun hn => ?_)
        have := early _ (unspent _ (.change awaited (here hi) payment.first (by rw [hrec]; exact h2)) hn)
        dsimp only at this
        omega
    · obtain ⟨ro, u⟩ := x
      dsimp only at h1 h2 h3
      obtain ⟨g1, c', g2, g3⟩ := payment.rest j ro h1
      have g4 := C35_round_trip _ _ _ k _ h2 g3
      have hf : ro.freeze_flag = .unfrozen := by
        obtain ⟨r, -, e⟩ := h1
        rw [e]
      refine (f3 (ro, u) (.transfer note) memos 0 .head ⟨hf, j, _, c', g1, g2, g4, by dsimp only; omega⟩).resolve_right
        (fun hn => ?_)
      have := early _ (unspent _ (.memo (here .head) g1 g2 g4 (by rw [hrec]; omega)) hn)
      dsimp only at this
      omega

omit S in
/-- the records that a payment creates for its own maker, when its first output is at `pos` -/
def ownOf (rng : PaymentRand) (ad : AssetDefinition) (people : List (UserPubKey × Amount)) (k : UserKeyPair) (pos : ℕ) :
    List (RecordOpening × U64) :=
  (people.zipIdx.filter (fun r => r.1.1 = k.pubKey)).map (fun r =>
    (⟨r.1.2, ad, r.1.1, .unfrozen, rng.blinds r.2⟩, Fin.ofNat (2 ^ 64) (pos + 1 + r.2)))

omit S in
theorem mem_ownOf {pos : ℕ} (small : pos + 1 + people.length ≤ 2 ^ 64) (x : RecordOpening × U64) :
    x ∈ ownOf rng ad people k pos ↔ ∃ j, paid rng ad people j x.1 ∧ x.1.pub_key = k.pubKey ∧ x.2.val = pos + 1 + j := by
  unfold ownOf
  rw [List.mem_map]
  constructor
  · rintro ⟨⟨r, j⟩, h1, rfl⟩
    obtain ⟨h1, h2⟩ := List.mem_filter.1 h1
    rw [List.mk_mem_zipIdx_iff_getElem?] at h1
    have := (List.getElem?_eq_some_iff.1 h1).1
    refine ⟨j, ⟨r, h1, rfl⟩, of_decide_eq_true h2, ?_⟩
    show (pos + 1 + j) % 2 ^ 64 = _
    exact Nat.mod_eq_of_lt (by omega)
  · rintro ⟨j, ⟨r, h1, h2⟩, h3, h4⟩
    have := (List.getElem?_eq_some_iff.1 h1).1
    refine ⟨(r, j), List.mem_filter.2 ⟨List.mk_mem_zipIdx_iff_getElem?.2 h1, decide_eq_true ?_⟩, ?_⟩
    · rw [h2] at h3
      exact h3
    · refine Prod.ext h2.symm (Fin.ext ?_)
      show (pos + 1 + j) % 2 ^ 64 = _
      rw [Nat.mod_eq_of_lt (by omega), h4]

omit S in
theorem nodup_ownOf {pos : ℕ} (small : pos + 1 + people.length ≤ 2 ^ 64) : (ownOf rng ad people k pos).Nodup := by
  unfold ownOf
  have nd : people.zipIdx.Nodup := by
    refine List.Nodup.of_map (fun r => r.2) ?_
    rw [List.zipIdx_map_snd]
    exact List.nodup_range'
  rw [List.nodup_map_iff_inj_on (nd.filter _)]
  rintro ⟨r, i⟩ h1 ⟨r', i'⟩ h2 e
  have h1 := List.mk_mem_zipIdx_iff_getElem?.1 (List.mem_filter.1 h1).1
  have h2 := List.mk_mem_zipIdx_iff_getElem?.1 (List.mem_filter.1 h2).1
  have l1 := (List.getElem?_eq_some_iff.1 h1).1
  have l2 := (List.getElem?_eq_some_iff.1 h2).1
  have hi : (pos + 1 + i) % 2 ^ 64 = (pos + 1 + i') % 2 ^ 64 := congrArg (fun x : RecordOpening × U64 => x.2.val) e
  rw [Nat.mod_eq_of_lt (by omega), Nat.mod_eq_of_lt (by omega)] at hi
  obtain rfl : i = i' := by omega
  rw [Option.some.inj (h1.symm.trans h2)]

omit S in
theorem total_ownOf (rng : PaymentRand) (ad : AssetDefinition) (people : List (UserPubKey × Amount)) (k : UserKeyPair)
    (pos : ℕ) :
    total ((ownOf rng ad people k pos).map (·.1)) + ((people.filter (fun r => r.1 ≠ k.pubKey)).map (·.2.val)).sum =
      (people.map (·.2.val)).sum := by
  have split : ∀ (rs : List (UserPubKey × Amount)) (n : ℕ),
      total (((rs.zipIdx n).filter (fun r => r.1.1 = k.pubKey)).map (fun r =>
        (⟨r.1.2, ad, r.1.1, .unfrozen, rng.blinds r.2⟩ : RecordOpening))) +
        ((rs.filter (fun r => r.1 ≠ k.pubKey)).map (·.2.val)).sum = (rs.map (·.2.val)).sum := by
    intro rs
    induction rs with
    | nil => intro n; rfl
    | cons r rs ih =>
      intro n
      have := ih (n + 1)
      by_cases hr : r.1 = k.pubKey
      · simp only [List.zipIdx_cons, List.filter_cons, hr, decide_true, if_true, List.map_cons, total_cons, ne_eq, not_true,
          decide_false, List.sum_cons, Bool.false_eq_true, if_false] at this ⊢
        omega
      · simp only [List.zipIdx_cons, List.filter_cons, hr, decide_true, if_true, List.map_cons, ne_eq, not_false_eq_true,
          decide_false, List.sum_cons, Bool.false_eq_true, if_false] at this ⊢
        omega
  have := split people 0
  unfold ownOf
  rw [List.map_map]
  exact this

omit S in
/-- the records of one asset among some -/
def ofCode (code : AssetCode) (l : List (RecordOpening × U64)) : List (RecordOpening × U64) :=
  l.filter (fun x => x.1.asset_def.code = code)

omit S in
/-- what changes in the account of one asset -/
theorem book {code : AssetCode} {w2 : Wallet} {new before after : List (RecordOpening × U64)} (once : coins.Nodup)
    (held : ∀ x ∈ coins, w.Holds x) (new_once : new.Nodup) (fresh : ∀ x ∈ new, ¬ w.Holds x)
    (holds : ∀ x, w2.Holds x ↔ (w.Holds x ∧ x ∉ coins) ∨ x ∈ new)
    (hb : Coins w code before) (ha : Coins w2 code after) :
    total (after.map (·.1)) + total ((ofCode code coins).map (·.1)) =
      total (before.map (·.1)) + total ((ofCode code new).map (·.1)) := by
  classical
  have perm : (after ++ ofCode code coins).Perm (before ++ ofCode code new) := by
    rw [List.perm_ext_iff_of_nodup]
    · intro x
      unfold ofCode
      rw [List.mem_append, List.mem_append, List.mem_filter, List.mem_filter, ha.2, hb.2, holds, decide_eq_true_iff]
      constructor
      · rintro (⟨⟨h1, -⟩ | h1, h2⟩ | ⟨h1, h2⟩)
        · exact .inl ⟨h1, h2⟩
        · exact .inr ⟨h1, h2⟩
        · exact .inl ⟨held x h1, h2⟩
      · rintro (⟨h1, h2⟩ | ⟨h1, h2⟩)
        · by_cases hc : x ∈ coins
          · exact .inr ⟨hc, h2⟩
          · exact .inl ⟨.inl ⟨h1, hc⟩, h2⟩
        · exact .inl ⟨.inr h1, h2⟩
    · rw [List.nodup_append]
      refine ⟨ha.1, once.filter _, fun x hx y hy e => ?_⟩
      subst e
      have hc := (List.mem_filter.1 hy).1
      rcases (holds x).1 ((ha.2 x).1 hx).1 with h1 | h1
      · exact h1.2 hc
      · exact fresh x h1 (held x hc)
    · rw [List.nodup_append]
      refine ⟨hb.1, new_once.filter _, fun x hx y hy e => ?_⟩
      subst e
      exact fresh x (List.mem_filter.1 hy).1 ((hb.2 x).1 hx).1
  have := total_perm perm
  rw [List.map_append, List.map_append, total_append, total_append] at this
  exact this

/-- a payment's note takes room for its outputs -/
theorem Spec.Sent.room (p : Sent k w rng ad people coins chg note memos) (world : World d b k h s w) {blind : F}
    {who : UserPubKey} (inserted : s.insertBlock d.val ⟨[.transfer note], blind, who⟩ = .ok s') :
    records h + 1 + people.length ≤ 2 ^ 64 := by
  obtain ⟨fee, -, e1, -, -, e4, -⟩ := LedgerState.insertBlock_ok inserted
  have hl := congrArg List.length e1
  rw [List.length_append, List.length_append, List.flatMap_cons, List.flatMap_nil, List.append_nil, (worldOk world).size] at hl
  have : (TransactionNote.transfer note).outputCommitments.length = people.length + 1 := p.lengths.1
  omega

omit S in
theorem ofCode_all {code : AssetCode} {l : List (RecordOpening × U64)} (all : ∀ x ∈ l, x.1.asset_def.code = code) :
    ofCode code l = l := List.filter_eq_self.2 (fun x hx => decide_eq_true (all x hx))

omit S in
theorem ofCode_none {code : AssetCode} {l : List (RecordOpening × U64)} (none : ∀ x ∈ l, x.1.asset_def.code ≠ code) :
    ofCode code l = [] := List.filter_eq_nil_iff.2 (fun x hx => by simp [none x hx])

omit S in
theorem ofCode_cons (code : AssetCode) (x : RecordOpening × U64) (l : List (RecordOpening × U64)) :
    total ((ofCode code (x :: l)).map (·.1)) =
      (if code = x.1.asset_def.code then x.1.amount.val else 0) + total ((ofCode code l).map (·.1)) := by
  unfold ofCode
  by_cases hc : x.1.asset_def.code = code
  · simp [hc, total_cons]
  · simp [hc, Ne.symm hc]

omit S in
theorem ownOf_code {pos : ℕ} {x : RecordOpening × U64} (hx : x ∈ ownOf rng ad people k pos) : x.1.asset_def = ad := by
  obtain ⟨r, -, rfl⟩ := List.mem_map.1 hx
  rfl

omit S in
theorem ofCode_same {ad : AssetDefinition} {l : List (RecordOpening × U64)} (code : AssetCode)
    (all : ∀ x ∈ l, x.1.asset_def = ad) :
    total ((ofCode code l).map (·.1)) = if code = ad.code then total (l.map (·.1)) else 0 := by
  by_cases hc : code = ad.code
  · rw [if_pos hc, ofCode_all (fun x hx => by rw [all x hx, hc])]
  · rw [if_neg hc, ofCode_none (fun x hx => by rw [all x hx]; exact Ne.symm hc)]
    rfl

theorem Spec.Makes.facts (world : World d b k h s w) {w1 : Wallet} {o : Deal}
    (makes : Makes d b k s w w1 o people coins chg note memos) :
    Sent k w o.rng o.definition people coins chg note memos ∧ (∀ x, w1.Holds x ↔ w.Holds x) ∧
      ∃ own, people = o.recipients ++ own ∧ ∀ r ∈ own, r.1 = k.pubKey := by
  cases makes with
  | native made payment =>
    obtain ⟨_, _, -, -, -, same⟩ := C61_payment world made
    exact ⟨payment.sent, same, [], (List.append_nil _).symm, fun _ h => nomatch h⟩
  | asset code made payment =>
    obtain ⟨_, _, _, _, -, -, -, same⟩ := C62_payment world code made
    refine ⟨payment.sent code.1, same, ?_⟩
    unfold Wallet.everyone
    split
    · refine ⟨_, rfl, fun r hr => ?_⟩
      rw [List.mem_singleton.1 hr]
      show w.pubKey = _
      unfold Wallet.pubKey
      rw [(worldOk world).key]
    · exact ⟨[], (List.append_nil _).symm, fun _ h => nomatch h⟩

/-- the memo of what is paid to the wallet itself can be relied on; for the others `Neat` says it -/
theorem Spec.Neat.opens {H : List Seen} {o : Deal} {orders : List Deal} (neat : Neat k H orders) (mem : o ∈ orders)
    {own : List (UserPubKey × Amount)} (e : people = o.recipients ++ own) (mine : ∀ r ∈ own, r.1 = k.pubKey) (j ro c ro')
    (hp : paid o.rng o.definition people j ro) (enc : ReceiverMemo.fromRo (o.rng.memos j) ro [] = .ok c)
    (dec : ReceiverMemo.decrypt c k ro.commitment [] = .ok ro') : ro' = ro := by
  obtain ⟨r, h1, h2⟩ := hp
  rw [e] at h1
  by_cases hj : j < o.recipients.length
  · rw [List.getElem?_append_left hj] at h1
    exact neat.memos o mem j ro c ro' ⟨r, h1, h2⟩ enc dec
  · rw [List.getElem?_append_right (by omega)] at h1
    have := C35_round_trip _ _ _ k _ (by rw [h2]; exact mine r (List.mem_of_getElem? h1)) enc
    rw [this] at dec
    cases dec
    rfl

/-- **What the wallet holds when a payment is settled**, in whatever asset it was: what it held, without the coins spent; the
change in the native asset; and what was paid to the wallet itself. -/
theorem C99_settled (world : World d b k h s w) {o : Deal} {w1 w2 : Wallet} {blind : F} {who : UserPubKey} {time : U64}
    {uid : U64} {recv : List RecordOpening} (makes : Makes d b k s w w1 o people coins chg note memos)
    (begun : World d b k (h ++ coins.map .spending ++ [.expecting chg]) s w1)
    (valid : validateTxnsBatch d s [.transfer note] time = .ok ())
    (inserted : s.insertBlock d.val ⟨[.transfer note], blind, who⟩ = .ok s') (offset : uid.val = s.leaves.length)
    (scanned : w1.scanBlock b [.transfer note] [memos] uid = .ok (w2, recv))
    (apart : Apart k (h ++ coins.map .spending ++ [.expecting chg] ++ [.block [(.transfer note, memos)] blind who time]))
    (neat : Neat k (h ++ coins.map .spending ++ [.expecting chg] ++ [.block [(.transfer note, memos)] blind who time]) [o])
    (x : RecordOpening × U64) :
    w2.Holds x ↔ (w.Holds x ∧ x ∉ coins) ∨ (x.1 = chg ∧ x.2.val = records h) ∨
      ∃ j, paid o.rng o.definition people j x.1 ∧ x.1.pub_key = k.pubKey ∧ x.2.val = records h + 1 + j := by
  obtain ⟨sent, same, own, e, mine⟩ := makes.facts world
  exact sent_settled world sent begun same valid inserted offset scanned apart neat.changes
    (neat.dummies o List.mem_cons_self) (neat.opens List.mem_cons_self e mine) x

/-- **Each account is charged with what is its own**: the account of the asset paid with the amounts paid to others, the native
one with the fee, and no other one with anything. -/
theorem C99_charge (world : World d b k h s w) {o : Deal} {w1 w2 : Wallet} {blind : F} {who : UserPubKey} {time : U64}
    {uid : U64} {recv : List RecordOpening} (makes : Makes d b k s w w1 o people coins chg note memos)
    (begun : World d b k (h ++ coins.map .spending ++ [.expecting chg]) s w1)
    (valid : validateTxnsBatch d s [.transfer note] time = .ok ())
    (inserted : s.insertBlock d.val ⟨[.transfer note], blind, who⟩ = .ok s') (offset : uid.val = s.leaves.length)
    (scanned : w1.scanBlock b [.transfer note] [memos] uid = .ok (w2, recv))
    (apart : Apart k (h ++ coins.map .spending ++ [.expecting chg] ++ [.block [(.transfer note, memos)] blind who time]))
    (neat : Neat k (h ++ coins.map .spending ++ [.expecting chg] ++ [.block [(.transfer note, memos)] blind who time]) [o])
    {code : AssetCode} {before after : List (RecordOpening × U64)} (hb : Coins w code before) (ha : Coins w2 code after) :
    total (after.map (·.1)) + o.charge k code = total (before.map (·.1)) := by
  have holds := C99_settled world makes begun valid inserted offset scanned apart neat
  obtain ⟨sent, -, own, e, mine⟩ := makes.facts world
  have small := sent.room world inserted
  have pos : records h < 2 ^ 64 := by omega
  have key := book (code := code) (w2 := w2) (new := (chg, ⟨records h, pos⟩) :: ownOf o.rng o.definition people k (records h))
    sent.once sent.held (List.nodup_cons.2 ⟨fun hm => by
      obtain ⟨j, -, -, hp⟩ := (mem_ownOf small _).1 hm
      dsimp only at hp
      omega, nodup_ownOf small⟩) (fun x hx hw => by
      have h1 := held_before world hw
      rcases List.mem_cons.1 hx with rfl | hx
      · exact absurd h1 (lt_irrefl _)
      · obtain ⟨j, -, -, hp⟩ := (mem_ownOf small _).1 hx
        omega) (fun x => by
      rw [holds, List.mem_cons, mem_ownOf small]
      exact or_congr_right (or_congr_left ⟨fun h => Prod.ext h.1 (Fin.ext h.2), fun h => by rw [h]; exact ⟨rfl, rfl⟩⟩)) hb ha
  rw [ofCode_cons, ofCode_same code (fun x => ownOf_code)] at key
  have others : ((people.filter (fun r => r.1 ≠ k.pubKey)).map (·.2.val)).sum = o.toOthers k := by
    unfold Deal.toOthers
    rw [e, List.filter_append, (List.filter_eq_nil_iff (l := own)).2 (fun r hr => by simp [mine r hr]), List.append_nil]
  have tot := total_ownOf o.rng o.definition people k (records h)
  rw [others] at tot
  dsimp only at key
  rw [sent.change, show AssetDefinition.native.code = nativeCode from rfl] at key
  unfold Deal.charge
  generalize total ((ownOf o.rng o.definition people k (records h)).map (·.1)) = mine' at key tot
  generalize o.toOthers k = others' at tot ⊢
  generalize hD : o.definition.code = dc at key ⊢
  cases makes with
  | native made payment =>
    rw [ofCode_same code (fun x hx => (payment.held x hx).2)] at key
    have := payment.value
    obtain rfl : nativeCode = dc := hD
    rw [show AssetDefinition.native.code = nativeCode from rfl] at key
    by_cases hc : code = nativeCode
    · simp only [if_pos hc] at key ⊢
      omega
    · simp only [if_neg hc] at key ⊢
      omega
  | @asset _ ad _ _ _ _ _ _ _ _ _ cd made payment =>
    rw [ofCode_cons, ofCode_same code (fun x hx => (payment.held x hx).2), payment.fee_coin.2,
      show AssetDefinition.native.code = nativeCode from rfl] at key
    have := payment.value
    have := payment.fee_value
    rw [everyone_sum] at tot
    obtain rfl : ad.code = dc := hD
    by_cases hc : code = nativeCode
    · simp only [if_pos hc, if_neg (show code ≠ ad.code by rw [hc]; exact cd.1.symm)] at key ⊢
      omega
    · by_cases hd : code = ad.code
      · simp only [if_neg hc, if_pos hd] at key ⊢
        omega
      · simp only [if_neg hc, if_neg hd] at key ⊢
        omega

/-- what some deals take from the account of an asset -/
def Spec.charges (k : UserKeyPair) (code : AssetCode) (orders : List Deal) : ℕ := (orders.map (fun o => o.charge k code)).sum

theorem Spec.Neat.prefix {more : List Seen} {orders orders' : List Deal} (neat : Neat k (h ++ more) orders)
    (sub : ∀ o ∈ orders', o ∈ orders) : Neat k h orders' :=
  ⟨fun c c' h1 h2 => neat.changes c c' (List.mem_append_left _ h1) (List.mem_append_left _ h2),
    fun o ho x hx => neat.dummies o (sub o ho) x (hx.append more), fun o ho => neat.memos o (sub o ho)⟩

theorem Spec.DealsInTurn.extends {orders : List Deal} {h' : List Seen} (deals : DealsInTurn d b k h s w orders h' s' w') :
    ∃ more, h' = h ++ more := by
  induction deals with
  | done => exact ⟨[], (List.append_nil _).symm⟩
  | pay _ _ _ _ _ _ _ ih =>
    obtain ⟨more, e⟩ := ih
    exact ⟨_, by rw [e, List.append_assoc, List.append_assoc, List.append_assoc]⟩

theorem Spec.DealsInTurn.world {orders : List Deal} {h' : List Seen} (deals : DealsInTurn d b k h s w orders h' s' w') :
    World d b k h s w → World d b k h' s' w' := by
  induction deals with
  | done => exact id
  | pay makes begun valid inserted offset scanned rest ih =>
    rename_i h s w w1 s1 w2 note memos people coins chg blind who time uid recv o orders h' s' w'
    exact fun _ => ih (World.block (txns := [(.transfer note, memos)]) (time := time) begun valid inserted offset scanned)

/-- **The accounts after any number of payments in any assets.** -/
theorem C99_account {orders : List Deal} {h' : List Seen} (deals : DealsInTurn d b k h s w orders h' s' w') :
    World d b k h s w → Apart k h' → Neat k h' orders →
    ∀ {code : AssetCode} {before after : List (RecordOpening × U64)}, Coins w code before → Coins w' code after →
    total (after.map (·.1)) + charges k code orders = total (before.map (·.1)) := by
  induction deals with
  | done =>
    intro _ _ _ code before after hb ha
    have perm : after.Perm before := (List.perm_ext_iff_of_nodup ha.1 hb.1).2 (fun x => (ha.2 x).trans (hb.2 x).symm)
    exact ((perm.map _).map _).sum_eq
  | pay makes begun valid inserted offset scanned rest ih =>
    intro world apart neat code before after hb ha
    rename_i h s w w1 s1 w2 note memos people coins chg blind who time uid recv o orders h' s' w'
    have world2 := World.block (txns := [(.transfer note, memos)]) (time := time) begun valid inserted offset scanned
    obtain ⟨more, e⟩ := rest.extends
    obtain ⟨nd, mem⟩ := (worldOk world2).ok.get code
    have h1 := ih world2 apart ⟨neat.changes, fun o ho => neat.dummies o (List.mem_cons_of_mem _ ho),
      fun o ho => neat.memos o (List.mem_cons_of_mem _ ho)⟩ ⟨nd, mem⟩ ha
    have h2 := C99_charge world makes begun valid inserted offset scanned (by rw [e] at apart; exact apart.prefix)
      (by rw [e] at neat; exact neat.prefix (by simp)) hb ⟨nd, mem⟩
    unfold charges at h1 ⊢
    rw [List.map_cons, List.sum_cons]
    omega

/-- **The balance may cover a payment that cannot be made**: the fee of a payment in another asset has to come from one single
native record. -/
theorem C99_scattered_false (world : World d b k h s w)
    (scattered : ∀ x, w.Holds x → x.1.asset_def.code = nativeCode → x.1.amount.val < fee.val) (r) :
    w.spendNonNative b d s rng ad recipients fee ≠ .ok r := by
  obtain ⟨w', note, memos, sig⟩ := r
  intro ok
  obtain ⟨sk, chg, f, x, pre, post, shelf, own, inputs, info, keys, sp⟩ := Wallet.spendNonNative_ok ok
  obtain ⟨l, h1, h2, h3⟩ := Wallet.findRecordForFee_ok sp.fee_find
  obtain ⟨g1, g2⟩ := ((shelf_holds world nativeCode h1).2 f).1 h2
  have := scattered f g1 g2
  have : fee.val ≤ f.1.amount.val := h3
  omega

/-- one code, one definition -/
def Spec.Genuine (w : Wallet) : Prop :=
  (∀ x, w.Holds x → x.1.asset_def.code = nativeCode → x.1.asset_def = AssetDefinition.native) ∧
  ∀ x y, w.Holds x → w.Holds y → x.1.asset_def.code = y.1.asset_def.code → x.1.asset_def = y.1.asset_def

theorem DealsInTurn_genuine {orders : List Deal} {h' : List Seen} (deals : DealsInTurn d b k h s w orders h' s' w') :
    World d b k h s w → Apart k h' → Neat k h' orders → Genuine w → Genuine w' := by
  induction deals with
  | done => exact fun _ _ _ h => h
  | pay makes begun valid inserted offset scanned rest ih =>
    intro world apart neat genuine
    rename_i h s w w1 s1 w2 note memos people coins chg blind who time uid recv o orders h' s' w'
    have world2 := World.block (txns := [(.transfer note, memos)]) (time := time) begun valid inserted offset scanned
    obtain ⟨more, e⟩ := rest.extends
    have holds := C99_settled world makes begun valid inserted offset scanned (by rw [e] at apart; exact apart.prefix)
      (by rw [e] at neat; exact neat.prefix (by simp))
    have change := (makes.facts world).1.change
    have known : ∀ x, w2.Holds x → x.1.asset_def = AssetDefinition.native ∨ ∃ y, w.Holds y ∧ x.1.asset_def = y.1.asset_def := by
      intro x hx
      rcases (holds x).1 hx with ⟨h1, -⟩ | ⟨h1, -⟩ | ⟨j, ⟨r, -, h1⟩, -⟩
      · exact .inr ⟨x, h1, rfl⟩
      · rw [h1]
        exact .inl change
      · rw [h1]
        cases makes with
        | native made payment => exact .inl rfl
        | asset cd made payment =>
          obtain ⟨y, l, hy⟩ := List.exists_cons_of_ne_nil payment.some_coin
          obtain ⟨g1, g2⟩ := payment.held y (by rw [hy]; exact List.mem_cons_self)
          exact .inr ⟨y, g1, g2.symm⟩
    have native : ∀ x, w2.Holds x → x.1.asset_def.code = nativeCode → x.1.asset_def = AssetDefinition.native := by
      intro x hx hc
      rcases known x hx with h1 | ⟨y, h1, h2⟩
      · exact h1
      · rw [h2]
        exact genuine.1 y h1 (by rw [← h2]; exact hc)
    refine ih world2 apart ⟨neat.changes, fun o ho => neat.dummies o (List.mem_cons_of_mem _ ho),
      fun o ho => neat.memos o (List.mem_cons_of_mem _ ho)⟩ ⟨native, fun x y hx hy hc => ?_⟩
    rcases known x hx with h1 | ⟨x', h1, h2⟩
    · rw [h1, native y hy (by rw [← hc, h1]; rfl)]
    · rcases known y hy with h3 | ⟨y', h3, h4⟩
      · rw [h3, native x hx (by rw [hc, h3]; rfl)]
      · rw [h2, h4]
        exact genuine.2 x' y' h1 h3 (by rw [← h2, ← h4]; exact hc)

/-- a scan changes neither the key nor the credential -/
theorem scan_rest (world : World d b k h s w) {txns : List (TransactionNote × List E.AeadCt)} {blind : F} {who : UserPubKey}
    {recv : List RecordOpening} {uid : U64}
    (inserted : s.insertBlock d.val ⟨txns.map (·.1), blind, who⟩ = .ok s') (offset : uid.val = s.leaves.length)
    (scanned : w.scanBlock b (txns.map (·.1)) (txns.map (·.2)) uid = .ok (w', recv)) : w.SameRest w' := by
  have i := worldOk world
  obtain ⟨fee, -, e1, -, -, e4, -⟩ := LedgerState.insertBlock_ok inserted
  dsimp only at e1
  unfold Wallet.scanBlock at scanned
  rw [if_neg (by simp), zip_map_self] at scanned
  have hlen : s'.leaves.length = s.leaves.length + outputs txns + 1 := by
    rw [e1, List.length_append, List.length_append, outputs_length, List.length_singleton]
  obtain ⟨w1, recv1, a1, a2, a3, -⟩ := Wallet.scanTxns_spec b txns i.ok (off := uid) (by omega) (Wallet.scanTxns_lens scanned)
  rw [a1] at scanned
  cases scanned
  exact a3

/-- the credential stays while payments are made and settled -/
theorem DealsInTurn_credential {orders : List Deal} {h' : List Seen} (deals : DealsInTurn d b k h s w orders h' s' w') :
    w'.credential = w.credential := by
  induction deals with
  | done => rfl
  | pay makes begun valid inserted offset scanned rest ih =>
    rename_i h s w w1 s1 w2 note memos people coins chg blind who time uid recv o orders h' s' w'
    rw [ih, (scan_rest (txns := [(.transfer note, memos)]) begun inserted offset scanned).credential]
    cases makes with
    | native made payment =>
      obtain ⟨_, _, _, _, _, _, _, sp⟩ := Wallet.spendNative_ok made
      rw [sp.wallet]
      exact (Wallet.markAll_rest _ _).2.2.2
    | asset code made payment =>
      obtain ⟨_, _, _, _, _, _, _, _, _, _, _, sp⟩ := Wallet.spendNonNative_ok made
      rw [sp.wallet]
      exact (Wallet.markAll_rest _ _).2.2.2

/-- **The next payment in another asset can be made**, as long as what was held of it at the beginning covers it together with
those made, and one native record covers the fee. -/
theorem C99_next_partial (complete : SnarkComplete) (batch : SnarkBatch) {orders : List Deal} {h' : List Seen}
    (deals : DealsInTurn d b k h s w orders h' s' w') (world : World d b k h s w) (apart : Apart k h')
    (neat : Neat k h' orders) (genuine : Genuine w)
    (code : ad.code ≠ nativeCode ∧ ad.code ≠ dummyCode)
    (freezer_has_viewer : ad.policy.freezer_pk ≠ 0 → ad.policy.viewer_pk ≠ 0)
    {natives before : List (RecordOpening × U64)} (all_native : Coins w nativeCode natives) (all : Coins w ad.code before)
    (small : total (natives.map (·.1)) + total (before.map (·.1)) < 2 ^ 127)
    (covers : charges k ad.code orders + (recipients.map (·.2.val)).sum ≤ total (before.map (·.1)))
    -- when it is its turn
    (some_coin : ∃ x, w'.Holds x ∧ x.1.asset_def = ad)
    (fee_coin : ∃ x, w'.Holds x ∧ x.1.asset_def.code = nativeCode ∧ fee ≤ x.1.amount)
    (recip : recipients ≠ []) (window : w.validUntil.val < 2 ^ 20)
    (creds : ad.policy.cred_pk ≠ 0 → ∃ c, w.credential = some c ∧ c.verify c.expiry = .ok () ∧ c.attrs.length = 8)
    (viewed : ad.policy.viewer_pk = 0 ∨
      (ad.policy.reveal_map[0] = ad.policy.reveal_map[1] ∧ ad.policy.reveal_threshold.val < 2 ^ 127))
    (keys : ∀ coins, Coins w' ad.code coins → ∀ n m, 3 ≤ n → n ≤ coins.length + 2 → recipients.length + 1 ≤ m →
      m ≤ recipients.length + 2 → ∃ x, transferPreprocess n m d = .ok x)
    (encrypts : ∀ own j ro, paid rng ad (w.everyone recipients own) j ro →
      ∃ c, ReceiverMemo.fromRo (rng.memos j) ro [] = .ok c)
    (dummy : dummyNullifier rng ∉ s'.nullifiers ∧ ∀ x, w'.Holds x → ownNullifier k x ≠ dummyNullifier rng) :
    ∃ w'' note memos sig, w'.spendNonNative b d s' rng ad recipients fee = .ok (w'', note, memos, sig) ∧
      note.aux_info.fee = fee ∧ TransactionNote.verifyReceiverMemosSignature (.transfer note) memos sig = .ok () ∧
      ∀ time : U64, time ≤ w.validUntil → validateTxnsBatch d s' [.transfer note] time = .ok () := by
  have world' := deals.world world
  have genuine' := DealsInTurn_genuine deals world apart neat genuine
  obtain ⟨nd, mem⟩ := (worldOk world').ok.get ad.code
  obtain ⟨nd0, mem0⟩ := (worldOk world').ok.get nativeCode
  have acc := C99_account deals world apart neat all ⟨nd, mem⟩
  have acc0 := C99_account deals world apart neat all_native ⟨nd0, mem0⟩
  obtain ⟨y, hy1, hy2⟩ := some_coin
  have cred := DealsInTurn_credential deals
  have until_ : w'.validUntil = w.validUntil := by
    unfold Wallet.validUntil
    rw [cred]
  have same : w'.everyone = w.everyone := by
    funext r own
    unfold Wallet.everyone Wallet.pubKey
    rw [(worldOk world').key, (worldOk world).key]
  rw [← until_] at window ⊢
  rw [← cred] at creds
  rw [← same] at encrypts
  refine C62_pays_partial complete batch world' apart code freezer_has_viewer (fun x hx => ⟨genuine'.1 x hx, fun hc => ?_⟩) nd mem
    (fun e => ?_) (by omega) fee_coin (fun x hx hc => ?_) recip window creds viewed (keys _ ⟨nd, mem⟩) encrypts dummy
  · rw [← hy2]
    exact genuine'.2 x y hx hy1 (by rw [hc, hy2])
  · have := (mem y).2 ⟨hy1, by rw [hy2]⟩
    rw [e] at this
    exact nomatch this
  · have h1 := amount_le_totalOf (List.mem_map_of_mem (f := fun x : RecordOpening × U64 => x.1) ((mem0 x).2 ⟨hx, hc⟩))
    have h2 := Spec.totalOf_le_total x.1.asset_def.code (((mapGet nativeCode w'.unspent).getD []).map (·.1))
    omega

/-- **A payment in another asset that was made can be carried on with.** -/
theorem C99_goes_on (world : World d b k h s w) {w1 : Wallet} {time : U64}
    (code : ad.code ≠ nativeCode ∧ ad.code ≠ dummyCode)
    (made : w.spendNonNative b d s rng ad recipients fee = .ok (w1, note, memos, sig))
    (valid : validateTxnsBatch d s [.transfer note] time = .ok ())
    (room : ∀ own, Room d.val s ((w.everyone recipients own).length + 2)) (blind : F) (who : UserPubKey) :
    ∃ h' s' w', DealsInTurn d b k h s w [⟨rng, some ad, recipients, fee⟩] h' s' w' ∧ World d b k h' s' w' := by
  obtain ⟨coin, coins, own, chg, pay, -, begun, -⟩ := C62_payment world code made
  have i := worldOk world
  have hins := (C52_partial (d := d.val) (b := ⟨[.transfer note], blind, who⟩) (s := s) ⟨i.room, i.small⟩).1.2 ⟨by
      show Room d.val s ((note.output_commitments.length + 0) + 1)
      rw [pay.lengths.1]
      exact room own, by
      show note.aux_info.fee.val + 0 < _
      exact note.aux_info.fee.isLt⟩
  have hs := C52_same.2 (Prod.ext rfl hins)
  obtain ⟨w2, recv, scanned, world2⟩ := C59_scans (uid := ⟨s.leaves.length, i.small⟩) begun (txns := [(.transfer note, memos)])
    (time := time) valid hs rfl (by
      intro t ht
      obtain rfl := List.mem_singleton.1 ht
      show note.output_commitments.length = memos.length + 1
      rw [pay.lengths.1, pay.lengths.2])
  exact ⟨_, _, w2, .pay (.asset code made pay) begun valid hs rfl scanned .done, world2⟩

/-- payments in turn, native ones only, are payments in turn -/
theorem Spec.PaysInTurn.deals {orders : List Order} {h' : List Seen} (pays : PaysInTurn d b k h s w orders h' s' w') :
    DealsInTurn d b k h s w (orders.map (fun o => ⟨o.rng, none, o.recipients, o.fee⟩)) h' s' w' := by
  induction pays with
  | done => exact .done
  | pay made payment begun valid inserted offset scanned rest ih =>
    exact .pay (.native made payment) begun valid inserted offset scanned ih

theorem Spec.DealsInTurn.trans {orders more : List Deal} {h1 h2 : List Seen} {s1 s2 : LedgerState} {w1 w2 : Wallet}
    (first : DealsInTurn d b k h s w orders h1 s1 w1) (then_ : DealsInTurn d b k h1 s1 w1 more h2 s2 w2) :
    DealsInTurn d b k h s w (orders ++ more) h2 s2 w2 := by
  induction first with
  | done => exact then_
  | pay makes begun valid inserted offset scanned rest ih => exact .pay makes begun valid inserted offset scanned (ih then_)

theorem Spec.Makes.asset_inv {w1 : Wallet} {fee_asset : AssetDefinition} {coins' : List (RecordOpening × U64)}
    (makes : Makes d b k s w w1 ⟨rng, some fee_asset, recipients, fee⟩ people coins' chg note memos) :
    ∃ coin coins own sig, coins' = coin :: coins ∧ people = w.everyone recipients own ∧
      (fee_asset.code ≠ nativeCode ∧ fee_asset.code ≠ dummyCode) ∧
      w.spendNonNative b d s rng fee_asset recipients fee = .ok (w1, note, memos, sig) ∧
      AssetSent k w rng fee_asset recipients fee coin coins own chg note memos := by
  cases makes with
  | asset code made payment => exact ⟨_, _, _, _, rfl, rfl, code, made, payment⟩

end Cap

namespace Cap.Examples

open Toy Spec

/-! Alice has a native coin worth 100 and 50 of an asset (C62).  She pays 20 of the asset to Bob, with a fee of 3. -/

def deal99 : Deal := ⟨payRng, some asset, [(bob.pubKey, 20)], 3⟩

def begun99 : List Seen := seenC ++ [(feeRec, 0), (assetRec, 1)].map .spending ++ [.expecting chgC]

/-- the payment is what it has to be -/
theorem is_first99 {coin : RecordOpening × U64} {coins : List (RecordOpening × U64)} {own : Amount} {chg : RecordOpening}
    {note : TransferNote} {memos : List Toy.E.AeadCt}
    (pay : AssetSent alice walletC payRng asset [(bob.pubKey, 20)] 3 coin coins own chg note memos) :
    coin = (feeRec, 0) ∧ coins = [(assetRec, 1)] ∧ own = 30 ∧ chg = chgC := by
  have hf : coin = (feeRec, 0) := by
    rcases (walletC_holds coin).1 pay.fee_coin.1 with e | e
    · exact e
    · have := pay.fee_coin.2
      rw [e] at this
      exact absurd (congrArg AssetDefinition.code this) asset_code.1
  have hc : coins = [(assetRec, 1)] := by
    have hall : ∀ x ∈ coins, x = (assetRec, 1) := fun x hx => by
      rcases (walletC_holds x).1 (pay.held x hx).1 with e | e
      · have := (pay.held x hx).2
        rw [e] at this
        exact absurd (congrArg AssetDefinition.code this) native_code_ne
      · exact e
    have := pay.once
    match coins, pay.some_coin with
    | [x], _ => rw [hall x List.mem_cons_self]
    | x :: y :: l, _ =>
      exfalso
      rw [hall x List.mem_cons_self, hall y (by simp), List.nodup_cons] at this
      exact this.1 List.mem_cons_self
  subst hf hc
  have hv := pay.value
  change 50 + 0 = 20 + 0 + own.val at hv
  refine ⟨rfl, rfl, Fin.ext (show own.val = 30 by omega), ?_⟩
  have hv := pay.fee_value
  change 100 = chg.amount.val + 3 at hv
  have ha : chg.amount = 97 := Fin.ext (show chg.amount.val = 97 by omega)
  obtain ⟨c1, c2, c3, c4⟩ := pay.change
  obtain ⟨a, ad, pk, ff, bl⟩ := chg
  dsimp only at ha c1 c2 c3 c4
  subst ha c1 c2 c3 c4
  rfl

theorem dummies99 : dummyNullifier payRng ∉ ([(feeRec, (0 : U64)), (assetRec, 1), (chgC, 2), (alices30, 4)] :
    List (RecordOpening × U64)).map (ownNullifier alice) := by decide +kernel

/-- what Alice is told of when the payment is settled -/
theorem received99 {note : TransferNote} {memos : List Toy.E.AeadCt}
    (pay : AssetSent alice walletC payRng asset [(bob.pubKey, 20)] 3 (feeRec, 0) [(assetRec, 1)] 30 chgC note memos) (blind : F)
    (who : UserPubKey) (time : U64) :
    Apart alice (begun99 ++ [.block [(.transfer note, memos)] blind who time]) ∧
    Neat alice (begun99 ++ [.block [(.transfer note, memos)] blind who time]) [deal99] := by
  have hat : ∀ {t : TransactionNote} {m : List Toy.E.AeadCt} {pos : ℕ},
      At (begun99 ++ [.block [(.transfer note, memos)] blind who time]) t m pos →
      t = .transfer note ∧ m = memos ∧ pos = 2 := by
    intro t m pos a
    rcases a.cases with a | ⟨txns, blind, who, time, n, h1, h2, rfl⟩
    · exfalso
      obtain ⟨before, txns, blind, who, time, after, -, -, h1, -⟩ := a
      have : Seen.block txns blind who time ∈ begun99 := by rw [h1]; simp
      simp [begun99, seenC, seen0] at this
    · cases h1
      rcases h2.cases with ⟨h3, h4⟩ | ⟨m, -, h3⟩
      · cases h3
        exact ⟨rfl, rfl, by rw [h4]; rfl⟩
      · exact (nomatch h3.mem)
  have expects : ∀ {c : RecordOpening}, .expecting c ∈ begun99 ++ [.block [(.transfer note, memos)] blind who time] → c = chgC := by
    intro c hc
    rcases List.mem_append.1 hc with hc | hc
    · rcases List.mem_append.1 hc with hc | hc
      · simp [seenC, seen0] at hc
      · cases List.mem_singleton.1 hc
        rfl
    · simp at hc
  have bobs : ∀ {c : Toy.E.AeadCt} {ro' : RecordOpening}, ReceiverMemo.fromRo 0 bobs20 [] = .ok c →
      ReceiverMemo.decrypt c alice bobs20.commitment [] ≠ .ok ro' := by
    intro c ro' h1 h2
    have := bobs20_alice
    rw [h1] at this
    dsimp only at this
    rw [h2] at this
    cases this
  have hr : ∀ x, Received alice (begun99 ++ [.block [(.transfer note, memos)] blind who time]) x →
      x ∈ [(feeRec, (0 : U64)), (assetRec, 1), (chgC, 2), (alices30, 4)] := by
    intro x hx
    cases hx with
    | told mem =>
      simp only [begun99, seenC, seen0, List.cons_append, List.nil_append, List.mem_cons, List.not_mem_nil, or_false, reduceCtorEq,
        false_or, Seen.told.injEq, List.map_cons, List.map_nil] at mem
      rcases mem with ⟨rfl, rfl⟩ | ⟨rfl, rfl⟩ <;> simp
    | memo a o m op p =>
      rename_i t ms pos j rc c ro uid
      obtain ⟨e1, e2, e3⟩ := hat a
      rw [e1] at o
      rw [e2] at m
      have hj : j = 0 ∨ j = 1 := by
        have := (List.getElem?_eq_some_iff.1 m).1
        rw [pay.lengths.2] at this
        have : j < 2 := this
        omega
      rcases hj with rfl | rfl
      · obtain ⟨g1, c', g2, g3⟩ := pay.rest 0 bobs20 ⟨_, rfl, by decide +kernel⟩
        rw [g2] at m
        cases m
        have g1' : (TransactionNote.transfer note).outputCommitments[0 + 1]? = some bobs20.commitment := g1
        rw [g1'] at o
        rw [← Option.some.inj o] at op
        exact absurd op (bobs g3)
      · obtain ⟨g1, c', g2, g3⟩ := pay.rest 1 alices30 ⟨_, rfl, by decide +kernel⟩
        rw [g2] at m
        cases m
        have g1' : (TransactionNote.transfer note).outputCommitments[1 + 1]? = some alices30.commitment := g1
        rw [g1'] at o
        rw [← Option.some.inj o, C35_round_trip _ _ _ _ _ rfl g3] at op
        rw [e3] at p
        rw [← Except.ok.inj op, show uid = 4 from Fin.ext p]
        simp
    | change wt a o p =>
      rename_i t ms pos chg uid
      obtain ⟨-, -, e3⟩ := hat a
      rw [e3] at p
      rw [expects wt, show uid = 2 from Fin.ext p]
      simp
  refine ⟨⟨fun x y hx hy hn => List.inj_on_of_nodup_map four_nullifiers (hr x hx) (hr y hy) hn, fun x hx t m pos a hp => ?_⟩,
    ⟨fun c c' h1 h2 _ => by rw [expects h1, expects h2], fun o ho x hx e => ?_, fun o ho j ro c ro' hp h1 h2 => ?_⟩⟩
  · exfalso
    have h1 := hr x hx
    have : x.2.val ≤ 4 := by
      simp only [List.mem_cons, List.not_mem_nil, or_false] at h1
      rcases h1 with rfl | rfl | rfl | rfl <;> decide
    obtain ⟨rfl, -, rfl⟩ := hat a
    have hl : (TransactionNote.transfer note).outputCommitments.length = 3 := pay.lengths.1
    omega
  · obtain rfl := List.mem_singleton.1 ho
    refine dummies99 ?_
    rw [show dummyNullifier payRng = _ from e.symm]
    exact List.mem_map_of_mem (hr x hx)
  · obtain rfl := List.mem_singleton.1 ho
    exfalso
    obtain ⟨r, hr1, hr2⟩ := hp
    have hj : j = 0 := by
      have := (List.getElem?_eq_some_iff.1 hr1).1
      simp only [deal99, List.length_cons, List.length_nil] at this
      omega
    subst hj
    have e : ro = bobs20 := by
      rw [hr2, ← Option.some.inj hr1]
      decide +kernel
    rw [e] at h1 h2
    exact bobs h1 h2

theorem coins99 : Coins walletC nativeCode [(feeRec, 0)] ∧ Coins walletC asset.code [(assetRec, 1)] := by
  refine ⟨⟨by simp, fun x => ?_⟩, by simp, fun x => ?_⟩ <;> rw [List.mem_singleton, walletC_holds]
  · refine ⟨fun h => ⟨.inl h, by rw [h]; rfl⟩, fun h => h.1.resolve_right (fun e => ?_)⟩
    rw [e] at h
    exact asset_code.1 h.2
  · refine ⟨fun h => ⟨.inr h, by rw [h]; rfl⟩, fun h => h.1.resolve_left (fun e => ?_)⟩
    rw [e] at h
    exact native_code_ne h.2

/-- when it is settled, nothing coincides -/
theorem settled99 {h1 : List Seen} {s1 : LedgerState} {w1 : Wallet}
    (run : DealsInTurn 2 .debug alice seenC led0 walletC [deal99] h1 s1 w1) :
    Apart alice h1 ∧ Neat alice h1 [deal99] := by
  cases run with
  | pay makes begun valid inserted offset scanned rest =>
    cases rest
    obtain ⟨coin, coins, own, sig, rfl, -, code, made, payment⟩ := Makes.asset_inv makes
    obtain ⟨rfl, rfl, rfl, rfl⟩ := is_first99 payment
    exact received99 payment _ _ _

/-- The payment can be made and settled. -/
theorem run99 : ∃ h1 s1 w1, DealsInTurn 2 .debug alice seenC led0 walletC [deal99] h1 s1 w1 := by
  obtain ⟨w', note, memos, sig, h1, -, -, h2⟩ := alicePaysAsset worldC
    (by simpa using two_only (more := []) (by simp)) walletC_holds rfl 20 (by decide)
  obtain ⟨h', s', w2, run, -⟩ := C99_goes_on worldC asset_code h1 (h2 5 (by decide)) (fun own => by
    unfold Wallet.everyone
    split
    · exact ⟨(by decide : 2 + (2 + 2) ≤ 3 ^ 2), (by decide : 2 + (2 + 2) < 2 ^ 64)⟩
    · exact ⟨(by decide : 2 + (1 + 2) ≤ 3 ^ 2), (by decide : 2 + (1 + 2) < 2 ^ 64)⟩) (47 : ZMod p) bob.pubKey
  exact ⟨h', s', w2, run⟩

/-- The accounts then: of 100 native 97, of 50 of the asset 30, and of any other asset nothing, as before. -/
example {h1 : List Seen} {s1 : LedgerState} {w1 : Wallet}
    (run : DealsInTurn 2 .debug alice seenC led0 walletC [deal99] h1 s1 w1) {native of_asset of_other : List (RecordOpening × U64)}
    {other : AssetCode} (h2 : other ≠ nativeCode ∧ other ≠ asset.code)
    (hn : Coins w1 nativeCode native) (ha : Coins w1 asset.code of_asset) (ho : Coins w1 other of_other) :
    total (native.map (·.1)) = 97 ∧ total (of_asset.map (·.1)) = 30 ∧ total (of_other.map (·.1)) = 0 := by
  obtain ⟨apart, neat⟩ := settled99 run
  have a1 := C99_account run worldC apart neat coins99.1 hn
  have a2 := C99_account run worldC apart neat coins99.2 ha
  have a3 := C99_account run worldC apart neat (before := []) ⟨List.nodup_nil, fun x => ⟨fun h => (nomatch h), fun h => by
    rcases (walletC_holds x).1 h.1 with e | e
    · exact absurd h.2.symm (by rw [e]; exact h2.1)
    · exact absurd h.2.symm (by rw [e]; exact h2.2)⟩⟩ ho
  rw [show charges alice nativeCode [deal99] = 3 by decide +kernel] at a1
  rw [show charges alice asset.code [deal99] = 20 by decide +kernel] at a2
  change _ + 3 = 100 at a1
  change _ + 20 = 50 at a2
  change _ + _ = 0 at a3
  omega

theorem fresh99 : dummyNullifier payRng96 ∉ ([(feeRec, (0 : U64)), (assetRec, 1), (chgC, 2), (alices30, 4)] :
    List (RecordOpening × U64)).map (ownNullifier alice) := by decide +kernel

/-- what Alice holds when the payment is settled -/
theorem after99 {h1 : List Seen} {s1 : LedgerState} {w1 : Wallet}
    (run : DealsInTurn 2 .debug alice seenC led0 walletC [deal99] h1 s1 w1) :
    (∀ x, w1.Holds x ↔ x = (chgC, 2) ∨ x = (alices30, 4)) ∧ dummyNullifier payRng96 ∉ s1.nullifiers := by
  obtain ⟨apart, neat⟩ := settled99 run
  cases run with
  | pay makes begun valid inserted offset scanned rest =>
    cases rest
    obtain ⟨coin, coins, own, sig, rfl, rfl, code, made, payment⟩ := Makes.asset_inv makes
    obtain ⟨rfl, rfl, rfl, rfl⟩ := is_first99 payment
    have holds := C99_settled worldC makes begun valid inserted offset scanned apart neat
    refine ⟨fun x => ⟨fun hx => ?_, fun hx => ?_⟩, fun hm => ?_⟩
    · rcases (holds x).1 hx with ⟨h1, h2⟩ | ⟨h1, h2⟩ | ⟨j, ⟨r, h1, h2⟩, h3, h4⟩
      · rcases (walletC_holds x).1 h1 with rfl | rfl <;> simp at h2
      · exact .inl (Prod.ext h1 (Fin.ext h2))
      · right
        match j, h1 with
        | 0, h1 =>
          exfalso
          rw [h2, ← Option.some.inj h1] at h3
          exact absurd h3 (show bob.pubKey ≠ alice.pubKey by decide +kernel)
        | 1, h1 =>
          refine Prod.ext ?_ (Fin.ext h4)
          rw [h2, ← Option.some.inj h1]
          decide +kernel
        | j + 2, h1 => cases h1
    · rcases hx with rfl | rfl
      · exact (holds _).2 (.inr (.inl ⟨rfl, rfl⟩))
      · exact (holds _).2 (.inr (.inr ⟨1, ⟨_, rfl, by decide +kernel⟩, rfl, rfl⟩))
    · obtain ⟨fee, -, -, -, e3, -⟩ := LedgerState.insertBlock_ok inserted
      rw [e3] at hm
      rcases hm with hm | hm
      · rw [List.flatMap_cons, List.flatMap_nil, List.append_nil, show (TransactionNote.transfer _).nullifiers = _ from
          payment.nullifiers] at hm
        rcases List.mem_append.1 hm with hm | hm
        · exact fresh99 (List.mem_of_mem_take (i := 2) hm)
        · exact dummies96.2.2 (List.mem_singleton.1 hm)
      · exact (nomatch hm)

theorem genuine99 : Genuine walletC := by
  refine ⟨fun x hx hc => ?_, fun x y hx hy hc => ?_⟩
  · rcases (walletC_holds x).1 hx with rfl | rfl
    · rfl
    · exact absurd hc asset_code.1
  · rcases (walletC_holds x).1 hx with rfl | rfl <;> rcases (walletC_holds y).1 hy with rfl | rfl
    · rfl
    · exact absurd hc native_code_ne
    · exact absurd hc.symm native_code_ne
    · rfl

/-- When the first payment is settled, Alice can pay 10 to Bob and 5 to herself; the note is accepted until her credential
expires. -/
example : ∃ h1 s1 w1, DealsInTurn 2 .debug alice seenC led0 walletC [deal99] h1 s1 w1 ∧ ∃ w2 note memos sig,
    w1.spendNonNative .debug 2 s1 payRng96 asset [(bob.pubKey, 10), (alice.pubKey, 5)] 3 = .ok (w2, note, memos, sig) ∧
      validateTxnsBatch 2 s1 [.transfer note] 1000 = .ok () := by
  obtain ⟨h1, s1, w1, run⟩ := run99
  obtain ⟨apart, neat⟩ := settled99 run
  obtain ⟨holds, fresh⟩ := after99 run
  have := C99_next_partial (ad := asset) (recipients := [(bob.pubKey, 10), (alice.pubKey, 5)]) (fee := 3) (rng := payRng96)
    Toy.complete Toy.batch run worldC apart neat genuine99 asset_code (fun _ => by decide +kernel) coins99.1 coins99.2
    (by
      show (100 + 0) + (50 + 0) < 2 ^ 127
      norm_num) (by decide +kernel) ⟨_, (holds _).2 (.inr rfl), rfl⟩ ⟨_, (holds _).2 (.inl rfl), rfl, by decide⟩ (by simp)
    (by decide) (fun _ => ⟨cred, rfl, cred_ok, rfl⟩) (.inr ⟨rfl, by decide +kernel⟩) ?_ ?_ ⟨fresh, fun x hx e => fresh99 ?_⟩
  · obtain ⟨w2, note, memos, sig, g1, -, -, g2⟩ := this
    exact ⟨h1, s1, w1, run, w2, note, memos, sig, g1, g2 1000 (by decide)⟩
  · intro coins hc n m h1 h2 h3 h4
    have hl : coins.length ≤ 1 := by
      refine (List.Nodup.subperm hc.1 (l₂ := [(alices30, 4)]) (fun x hx => ?_)).length_le
      obtain ⟨g1, g2⟩ := (hc.2 x).1 hx
      rcases (holds x).1 g1 with e | e
      · rw [e] at g2
        exact absurd g2 native_code_ne
      · exact List.mem_singleton.2 e
    simp only [List.length_cons, List.length_nil] at h3 h4
    obtain rfl : n = 3 := by omega
    rcases (by omega : m = 3 ∨ m = 4) with rfl | rfl
    · exact ⟨_, rfl⟩
    · exact ⟨_, rfl⟩
  · rintro own j ro ⟨r, hr, rfl⟩
    have : r.1 = bob.pubKey ∨ r.1 = alice.pubKey := by
      have := List.mem_of_getElem? hr
      unfold Wallet.everyone at this
      rw [show walletC.pubKey = alice.pubKey from rfl] at this
      split at this <;> simp only [List.cons_append, List.nil_append, List.mem_cons, List.not_mem_nil, or_false] at this
      · rcases this with rfl | rfl | rfl
        · exact .inl rfl
        · exact .inr rfl
        · exact .inr rfl
      · rcases this with rfl | rfl
        · exact .inl rfl
        · exact .inr rfl
    obtain ⟨p, a'⟩ := r
    rcases this with e | e
    · dsimp only at e
      subst e
      exact ⟨_, rfl⟩
    · dsimp only at e
      subst e
      exact ⟨_, rfl⟩
  · rw [show dummyNullifier payRng96 = _ from e.symm]
    refine List.mem_map_of_mem ?_
    rcases (holds x).1 hx with rfl | rfl <;> simp

/-- another native coin of Alice, and the ledger with it -/
def coin99 : RecordOpening := { feeRec with blind := (5 : ZMod p) }
def led99 : LedgerState := ⟨tree1 ++ [coin99.commitment], [], treeRoot 2 (tree1 ++ [coin99.commitment]) :: led0.roots⟩

/-- Alice has 50 of the asset and two native coins worth 100 each, but cannot pay a fee of 150. -/
example (r) : (((walletA.addRecordOpening assetRec 1)).addRecordOpening coin99 2).spendNonNative .debug 2
    led99 payRng asset [(bob.pubKey, 20)] 150 ≠ .ok r := by
  have world := ((worldA.told (ro := assetRec) (uid := 1) rfl rfl rfl (by simp [led0])).grant (s' := led99) (ro := coin99)
    (bind_ok_iff.2 ⟨_, room (by decide), rfl⟩)).told (ro := coin99) (uid := 2) rfl rfl rfl (by simp [led99])
  refine C99_scattered_false world (fun x hx hc => ?_) r
  rw [Wallet.holds_add, Wallet.holds_add, walletA_holds] at hx
  rcases hx with rfl | rfl | rfl
  · decide
  · exact absurd hc asset_code.1
  · decide

end Cap.Examples
