/-
C102: the books of a wallet are right on a busy ledger, also when some of what it does comes to nothing.

status: proved
note: C102_books: a wallet pays, mints, freezes and releases whenever it likes, attempts may never come into a block, be made again, or come late, blocks hold any number of its own transactions and of those of others, and records are granted and handed to it in between; after any such history the account of every asset is exactly the first balance, minus what the acts that came into blocks take, plus what they give, plus what others brought. C102_coins: what came into blocks was made, no coin went with two of them, and a coin of an attempt that came to nothing is still held. C102_in_turn: the histories of C100 are a special case. Hypotheses about the values of this history only: own nullifiers apart, no two transactions with the same first output, a transaction labelled as somebody else's spends no record of the wallet, only records of others are frozen.
-/
import Verif.Props.C100
import Verif.Props.C101

namespace Cap

open Spec

variable [E : CapEnv] [S : CapExt]

omit S in
/-- what the records of one asset among some are worth -/
def Spec.worth (code : AssetCode) (l : List RecordOpening) : ℕ := total (l.filter (fun ro => ro.asset_def.code = code))

/-- Something a wallet did: the coins it gave away, the change it waits for, and what it published. -/
structure Spec.Own where
  act : Act
  coins : List (RecordOpening × U64)
  chg : RecordOpening
  note : TransactionNote
  memos : List E.AeadCt

/-- A wallet does things whenever it likes, and meanwhile scans blocks with transactions of its own and of others.  `made` is
what it did, `settled` what of it came into blocks, `gifts` what the transactions of others brought.  The transactions of a
block come with a label: what the wallet did, or nothing, if they are of somebody else and spend no record of the wallet. -/
inductive Spec.Busy (d : Fin 256) (b : Build) (k : UserKeyPair) (h0 : List Seen) (s0 : LedgerState) (w0 : Wallet) :
    List Seen → LedgerState → Wallet → List Own → List Own → List RecordOpening → Prop
  | start : Busy d b k h0 s0 w0 h0 s0 w0 [] [] []
  | act {h s w w1 a coins chg t memos made settled gifts} (before : Busy d b k h0 s0 w0 h s w made settled gifts)
      (does : Does d b k s w w1 a coins chg t memos)
      (begun : World d b k (h ++ coins.map .spending ++ [.expecting chg]) s w1) :
      Busy d b k h0 s0 w0 (h ++ coins.map .spending ++ [.expecting chg]) s w1 (made ++ [⟨a, coins, chg, t, memos⟩]) settled gifts
  | block {h s w s1 w1 blind who time uid recv made settled gifts} {labels : List ((TransactionNote × List E.AeadCt) × Option Own)}
      (before : Busy d b k h0 s0 w0 h s w made settled gifts)
      (own : ∀ y ∈ labels, ∀ o, y.2 = some o → o ∈ made ∧ y.1 = (o.note, o.memos))
      (foreign : ∀ y ∈ labels, y.2 = none → ∀ x, Received k (h ++ [.block (labels.map (·.1)) blind who time]) x →
        ownNullifier k x ∉ y.1.1.nullifiers)
      (valid : validateTxnsBatch d s ((labels.map (·.1)).map (·.1)) time = .ok ())
      (inserted : s.insertBlock d.val ⟨(labels.map (·.1)).map (·.1), blind, who⟩ = .ok s1)
      (offset : (uid : U64).val = s.leaves.length)
      (scanned : w.scanBlock b ((labels.map (·.1)).map (·.1)) ((labels.map (·.1)).map (·.2)) uid = .ok (w1, recv)) :
      Busy d b k h0 s0 w0 (h ++ [.block (labels.map (·.1)) blind who time]) s1 w1 made (settled ++ labels.filterMap (·.2))
        (gifts ++ (labels.filter (fun y => y.2.isNone)).flatMap (fun y => brings k w.changes y.1))
  | granted {h s w ro s1 made settled gifts} (before : Busy d b k h0 s0 w0 h s w made settled gifts)
      (ok : s.grant d.val ro = .ok s1) : Busy d b k h0 s0 w0 (h ++ [.grant ro]) s1 w made settled gifts
  | told {h s w ro uid made settled gifts} (before : Busy d b k h0 s0 w0 h s w made settled gifts)
      (mine : ro.pub_key = k.pubKey) (unfrozen : ro.freeze_flag = .unfrozen)
      (there : s.leaves[(uid : U64).val]? = some ro.commitment) (unspent : w.nullify (ro, uid) ∉ s.nullifiers)
      (new : ¬ w.Holds (ro, uid)) :
      Busy d b k h0 s0 w0 (h ++ [.told ro uid]) s (w.addRecordOpening ro uid) made settled (gifts ++ [ro])
  | reordered {h s w w1 made settled gifts} (before : Busy d b k h0 s0 w0 h s w made settled gifts)
      (same : SameContents w w1) : Busy d b k h0 s0 w0 h s w1 made settled gifts

/-- No two transactions of a history have the same first output. -/
def Spec.Firsts (h : List Seen) : Prop :=
  ((h.flatMap (fun e => match e with
    | .block txns _ _ _ => txns.map (fun t => t.1.outputCommitments[0]?)
    | _ => []))).Nodup

/-- What something that a wallet did consists of: the coins and the other nullifiers; the change and the other records, each
with a memo; and that its books are right. -/
structure Spec.Whole (k : UserKeyPair) (o : Own) (outs : List RecordOpening) : Prop where
  once : o.coins.Nodup
  nullifiers : o.note.nullifiers = o.coins.map (ownNullifier k) ++ o.act.foreign
  outputs : o.note.outputCommitments = (o.chg :: outs).map RecordOpening.commitment
  lengths : o.memos.length = outs.length
  memos : ∀ (j : ℕ) ro, outs[j]? = some ro → ∃ c r, o.memos[j]? = some c ∧ ReceiverMemo.fromRo r ro [] = .ok c ∧
    ∀ ro', ReceiverMemo.decrypt c k ro.commitment [] = .ok ro' → ro' = ro
  books : ∀ code, worth code (o.chg :: outs.filter (fun ro => ro.pub_key = k.pubKey ∧ ro.freeze_flag = .unfrozen)) +
    o.act.takes k code = worth code (o.coins.map (·.1)) + o.act.gives k code

variable {d : Fin 256} {b : Build} {k : UserKeyPair} {h h0 : List Seen} {s s' s0 : LedgerState} {w w' w1 w0 : Wallet}
  {fee amount : Amount} {memos : List E.AeadCt} {ad : AssetDefinition} {coins : List (RecordOpening × U64)}
  {coin : RecordOpening × U64} {chg : RecordOpening} {a : Act} {t : TransactionNote} {outs : List RecordOpening}
  {blind : F} {who owner : UserPubKey} {time uid : U64} {recv : List RecordOpening}

omit S in
theorem worth_cons (code : AssetCode) (ro : RecordOpening) (l : List RecordOpening) :
    worth code (ro :: l) = (if code = ro.asset_def.code then ro.amount.val else 0) + worth code l := by
  unfold worth
  by_cases hc : ro.asset_def.code = code
  · simp [hc, total_cons]
  · simp [hc, Ne.symm hc]

omit S in
theorem worth_append (code : AssetCode) (l m : List RecordOpening) : worth code (l ++ m) = worth code l + worth code m := by
  unfold worth
  rw [List.filter_append, total_append]

omit S in
theorem worth_same {ad : AssetDefinition} {l : List RecordOpening} (code : AssetCode) (all : ∀ ro ∈ l, ro.asset_def = ad) :
    worth code l = if code = ad.code then total l else 0 := by
  unfold worth
  by_cases hc : code = ad.code
  · rw [if_pos hc, List.filter_eq_self.2 (fun x hx => decide_eq_true (by rw [all x hx, hc]))]
  · rw [if_neg hc, List.filter_eq_nil_iff.2 (fun x hx => by rw [all x hx]; simpa using Ne.symm hc)]
    rfl

theorem whole_pay {o : Deal} {people : List (UserPubKey × Amount)} {note : TransferNote} (world : World d b k h s w)
    (makes : Makes d b k s w w1 o people coins chg note memos)
    (opens : ∀ r ro c ro', (Act.pay o).Tells r ro → ReceiverMemo.fromRo r ro [] = .ok c →
      ReceiverMemo.decrypt c k ro.commitment [] = .ok ro' → ro' = ro) :
    ∃ outs, Whole k ⟨.pay o, coins, chg, .transfer note, memos⟩ outs := by
  obtain ⟨sent, -, own, e, mine⟩ := makes.facts world
  let g : (UserPubKey × Amount) × ℕ → RecordOpening := fun r => ⟨r.1.2, o.definition, r.1.1, .unfrozen, o.rng.blinds r.2⟩
  have at_ : ∀ (j : ℕ) ro, (people.zipIdx.map g)[j]? = some ro ↔ paid o.rng o.definition people j ro := by
    intro j ro
    rw [List.getElem?_map, List.getElem?_zipIdx, Option.map_map, Option.map_eq_some_iff, Nat.zero_add]
    exact ⟨fun ⟨r, h1, h2⟩ => ⟨r, h1, h2.symm⟩, fun ⟨r, h1, h2⟩ => ⟨r, h1, h2.symm⟩⟩
  refine ⟨people.zipIdx.map g, sent.once, sent.nullifiers, ?_, ?_, fun j ro hj => ?_, fun code => ?_⟩
  · show note.output_commitments = _
    refine List.ext_getElem? fun i => ?_
    cases i with
    | zero => rw [sent.first]; rfl
    | succ j =>
      rw [List.map_cons, List.getElem?_cons_succ]
      by_cases hj : j < people.length
      · have hp := (at_ j _).2 ⟨_, List.getElem?_eq_getElem hj, rfl⟩
        rw [List.getElem?_map, hp]
        exact (sent.rest j _ ⟨_, List.getElem?_eq_getElem hj, rfl⟩).1
      · rw [List.getElem?_eq_none (by rw [sent.lengths.1]; omega), List.getElem?_eq_none (by
          rw [List.length_map, List.length_map, List.length_zipIdx]; omega)]
  · show memos.length = _
    rw [sent.lengths.2, List.length_map, List.length_zipIdx]
  · have hp := (at_ j ro).1 hj
    obtain ⟨-, c, h1, h2⟩ := sent.rest j ro hp
    refine ⟨c, _, h1, h2, fun ro' dec => ?_⟩
    obtain ⟨r, g1, g2⟩ := hp
    rw [e] at g1
    by_cases hj : j < o.recipients.length
    · rw [List.getElem?_append_left hj] at g1
      exact opens _ ro c ro' ⟨j, ⟨r, g1, g2⟩, rfl⟩ h2 dec
    · rw [List.getElem?_append_right (by omega)] at g1
      have := C35_round_trip _ _ _ k _ (by rw [g2]; exact mine r (List.mem_of_getElem? g1)) h2
      rw [this] at dec
      cases dec
      rfl
  · have same : (people.zipIdx.map g).filter (fun ro => ro.pub_key = k.pubKey ∧ ro.freeze_flag = .unfrozen) =
        (ownOf o.rng o.definition people k 0).map (·.1) := by
      unfold ownOf
      rw [List.filter_map, List.map_map]
      congr 1
      refine List.filter_congr fun r _ => ?_
      simp [g]
    have tot := total_ownOf o.rng o.definition people k 0
    have others : ((people.filter (fun r => r.1 ≠ k.pubKey)).map (·.2.val)).sum = o.toOthers k := by
      unfold Deal.toOthers
      rw [e, List.filter_append, (List.filter_eq_nil_iff (l := own)).2 (fun r hr => by simp [mine r hr]), List.append_nil]
    rw [others] at tot
    show worth code (chg :: _) + o.charge k code = worth code (coins.map (·.1)) + 0
    rw [same, worth_cons, worth_same code (ad := o.definition) (l := (ownOf o.rng o.definition people k 0).map (·.1)) (fun ro hro => by
      obtain ⟨x, hx, rfl⟩ := List.mem_map.1 hro
      exact ownOf_code hx), sent.change, show AssetDefinition.native.code = nativeCode from rfl]
    unfold Deal.charge
    generalize total ((ownOf o.rng o.definition people k 0).map (·.1)) = mine' at tot ⊢
    generalize o.toOthers k = others' at tot ⊢
    generalize hD : o.definition.code = dc
    cases makes with
    | native made payment =>
      rw [worth_same code (ad := AssetDefinition.native) (l := coins.map (·.1)) (fun ro hro => by
        obtain ⟨x, hx, rfl⟩ := List.mem_map.1 hro
        exact (payment.held x hx).2)]
      have := payment.value
      obtain rfl : nativeCode = dc := hD
      rw [show AssetDefinition.native.code = nativeCode from rfl]
      by_cases hc : code = nativeCode
      · simp only [if_pos hc]
        omega
      · simp only [if_neg hc]
    | @asset _ ad _ _ _ coins' _ _ _ _ _ cd made payment =>
      rw [List.map_cons, worth_cons, worth_same code (ad := ad) (l := coins'.map (·.1)) (fun ro hro => by
        obtain ⟨x, hx, rfl⟩ := List.mem_map.1 hro
        exact (payment.held x hx).2), payment.fee_coin.2, show AssetDefinition.native.code = nativeCode from rfl]
      have := payment.value
      have := payment.fee_value
      rw [everyone_sum] at tot
      obtain rfl : ad.code = dc := hD
      by_cases hc : code = nativeCode
      · simp only [if_pos hc, if_neg (show code ≠ ad.code by rw [hc]; exact cd.1.symm)]
        omega
      · by_cases hd : code = ad.code
        · simp only [if_neg hc, if_pos hd]
          omega
        · simp only [if_neg hc, if_neg hd]

/-- everything a wallet does is whole -/
theorem does_whole (world : World d b k h s w) (does : Does d b k s w w1 a coins chg t memos)
    (opens : ∀ r ro c ro', a.Tells r ro → ReceiverMemo.fromRo r ro [] = .ok c →
      ReceiverMemo.decrypt c k ro.commitment [] = .ok ro' → ro' = ro)
    (others : ∀ ro ∈ a.replaces, ro.pub_key ≠ k.pubKey) :
    ∃ outs, Whole k ⟨a, coins, chg, t, memos⟩ outs := by
  cases does with
  | pay makes => exact whole_pay world makes opens
  | @mint i i' rng fee _ ad amount owner coin _ note sig memo mine then_ known made minted =>
    have one := minted.made
    refine ⟨_, List.nodup_singleton _, one.nullifiers, one.outputs, one.lengths, fun j ro hj => ?_, fun code => ?_⟩
    · obtain ⟨c, r, h1, h2, h3⟩ := one.memos j ro hj
      exact ⟨c, r, h1, h2, fun ro' => opens r ro c ro' h3 h2⟩
    · have value := minted.fee_value
      have change := minted.change.1
      have native := minted.held.2
      show worth code (chg :: _) + (if code = nativeCode then fee.val else 0) = worth code [coin.1] +
        if owner = k.pubKey ∧ code = ad.code then amount.val else 0
      rw [worth_cons, worth_cons, change, native, show AssetDefinition.native.code = nativeCode from rfl,
        show worth code [] = 0 from rfl]
      by_cases ho : owner = k.pubKey
      · rw [List.filter_cons_of_pos (by simp [ho]), List.filter_nil, worth_cons, show worth code [] = 0 from rfl]
        simp only [ho, true_and]
        by_cases hc : code = nativeCode
        · simp only [if_pos hc]
          omega
        · simp only [if_neg hc]
          omega
      · rw [List.filter_cons_of_neg (by simp [ho]), List.filter_nil, show worth code [] = 0 from rfl,
          if_neg (show ¬ (owner = k.pubKey ∧ code = ad.code) from fun h => ho h.1)]
        by_cases hc : code = nativeCode
        · simp only [if_pos hc]
          omega
        · simp only [if_neg hc]
  | @freeze f f' rng flag user rs fee coin _ note _ sig mine then_ known made froze =>
    have one := froze_made known made froze
    refine ⟨_, List.nodup_singleton _, one.nullifiers, one.outputs, one.lengths, fun j ro hj => ?_, fun code => ?_⟩
    · obtain ⟨c, r, h1, h2, h3⟩ := one.memos j ro hj
      exact ⟨c, r, h1, h2, fun ro' => opens r ro c ro' h3 h2⟩
    · have value := froze.fee_value
      have change := froze.change.1
      have native := froze.held.2
      show worth code (chg :: _) + (if code = nativeCode then fee.val else 0) = worth code [coin.1] + 0
      rw [worth_cons, worth_cons, change, native, show AssetDefinition.native.code = nativeCode from rfl,
        show worth code [] = 0 from rfl, List.filter_eq_nil_iff.2 (fun ro hro => by
          have := others ro hro
          simp [this]), show worth code [] = 0 from rfl]
      by_cases hc : code = nativeCode
      · simp only [if_pos hc]
        omega
      · simp only [if_neg hc]

/-- what a memo of an own transaction tells its owner -/
theorem tells_own {ro : RecordOpening} {c : E.AeadCt} {r : ℕ} (made : ReceiverMemo.fromRo r ro [] = .ok c)
    (opens : ∀ ro', ReceiverMemo.decrypt c k ro.commitment [] = .ok ro' → ro' = ro) :
    tells k (ro.commitment, c) = if ro.pub_key = k.pubKey ∧ ro.freeze_flag = .unfrozen then some ro else none := by
  by_cases hc : ro.pub_key = k.pubKey ∧ ro.freeze_flag = .unfrozen
  · rw [if_pos hc]
    exact tells_some.2 ⟨hc.2, C35_round_trip _ _ _ _ _ hc.1 made⟩
  · rw [if_neg hc]
    refine Option.eq_none_iff_forall_ne_some.2 fun ro' he => hc ?_
    obtain ⟨h1, h2⟩ := tells_some.1 he
    obtain rfl := opens ro' h2
    exact ⟨(C35_sound _ _ _ _ _ h2).1, h1⟩

theorem tells_outs : ∀ {outs : List RecordOpening} {memos : List E.AeadCt}, memos.length = outs.length →
    (∀ (j : ℕ) ro, outs[j]? = some ro → ∃ c r, memos[j]? = some c ∧ ReceiverMemo.fromRo r ro [] = .ok c ∧
      ∀ ro', ReceiverMemo.decrypt c k ro.commitment [] = .ok ro' → ro' = ro) →
    ((outs.map RecordOpening.commitment).zip memos).filterMap (tells k) =
      outs.filter (fun ro => ro.pub_key = k.pubKey ∧ ro.freeze_flag = .unfrozen)
  | [], _, _, _ => rfl
  | ro :: outs, [], hl, _ => by simp at hl
  | ro :: outs, c :: memos, hl, hm => by
    obtain ⟨c', r, h1, h2, h3⟩ := hm 0 ro rfl
    obtain rfl := Option.some.inj h1
    have ih := tells_outs (outs := outs) (memos := memos) (by simpa using hl) (fun j ro' hj => hm (j + 1) ro' hj)
    rw [List.map_cons, List.zip_cons_cons, List.filterMap_cons, tells_own h2 h3, ih]
    by_cases hc : ro.pub_key = k.pubKey ∧ ro.freeze_flag = .unfrozen
    · rw [if_pos hc, List.filter_cons_of_pos (by simpa using hc)]
    · rw [if_neg hc, List.filter_cons_of_neg (by simpa using hc)]

/-- what an own transaction brings -/
theorem Spec.Whole.brings {o : Own} (whole : Whole k o outs) {awaited : List RecordOpening}
    (unique : ∀ c ∈ awaited, ∀ c' ∈ awaited, c.commitment = c'.commitment → c = c') (waits : o.chg ∈ awaited) :
    Spec.brings k awaited (o.note, o.memos) =
      o.chg :: outs.filter (fun ro => ro.pub_key = k.pubKey ∧ ro.freeze_flag = .unfrozen) := by
  unfold Spec.brings givesBack
  rw [whole.outputs, List.map_cons, List.getElem?_cons_zero, List.tail_cons, tells_outs whole.lengths whole.memos]
  dsimp only
  have : awaited.find? (fun c => c.commitment = o.chg.commitment) = some o.chg := by
    cases hf : awaited.find? (fun c => c.commitment = o.chg.commitment) with
    | none =>
      have := List.find?_eq_none.1 hf o.chg waits
      simp at this
    | some c =>
      rw [unique c (List.mem_of_find?_eq_some hf) o.chg waits (by simpa using List.find?_some hf)]
  rw [this]
  rfl

theorem Spec.Does.held (world : World d b k h s w) (does : Does d b k s w w1 a coins chg t memos) : ∀ x ∈ coins, w.Holds x := by
  cases does with
  | pay makes => exact (makes.facts world).1.held
  | mint mine then_ known made minted =>
    intro x hx
    rw [List.mem_singleton.1 hx]
    exact minted.held.1
  | freeze mine then_ known made froze =>
    intro x hx
    rw [List.mem_singleton.1 hx, ← mine]
    exact froze.held.1

theorem Spec.Firsts.prefix {more : List Seen} (firsts : Firsts (h ++ more)) : Firsts h := by
  unfold Firsts at *
  rw [List.flatMap_append, List.nodup_append] at firsts
  exact firsts.1

theorem Spec.Firsts.last {txns : List (TransactionNote × List E.AeadCt)}
    (firsts : Firsts (h ++ [.block txns blind who time])) :
    (txns.map (fun t => t.1.outputCommitments[0]?)).Nodup ∧
      ∀ t m pos, At h t m pos → ∀ u ∈ txns, t.outputCommitments[0]? ≠ u.1.outputCommitments[0]? := by
  unfold Firsts at firsts
  rw [List.flatMap_append, List.nodup_append, List.flatMap_cons, List.flatMap_nil, List.append_nil] at firsts
  refine ⟨firsts.2.1, fun t m pos a u hu => firsts.2.2 _ ?_ _ (List.mem_map.2 ⟨u, hu, rfl⟩)⟩
  obtain ⟨before, txns, blind, who, time, after, earlier, later, rfl, rfl, -⟩ := a
  refine List.mem_flatMap.2 ⟨_, List.mem_append_right _ List.mem_cons_self, List.mem_map.2 ⟨(t, m), by simp, rfl⟩⟩

theorem Spec.Busy.world {made settled : List Own} {gifts : List RecordOpening}
    (busy : Busy d b k h0 s0 w0 h s w made settled gifts) (world : World d b k h0 s0 w0) : World d b k h s w := by
  induction busy with
  | start => exact world
  | act _ _ begun _ => exact begun
  | block _ _ _ valid inserted offset scanned ih => exact .block ih valid inserted offset scanned
  | granted _ ok ih => exact .grant ih ok
  | told _ mine unfrozen there unspent _ ih => exact .told ih mine unfrozen there unspent
  | reordered _ same ih => exact .reorder ih same

/-- what stays true of the things a wallet did -/
structure Kept (k : UserKeyPair) (h : List Seen) (s : LedgerState) (w : Wallet) (made settled : List Own) : Prop where
  whole : ∀ o ∈ made, ∃ outs, Whole k o outs
  coins : ∀ o ∈ made, ∀ x ∈ o.coins, Received k h x ∧ x.2.val < records h ∧ (w.Holds x ∨ ∃ o' ∈ settled, x ∈ o'.coins)
  expects : ∀ o ∈ made, .expecting o.chg ∈ h
  came : ∀ o ∈ settled, o ∈ made ∧ ∀ x ∈ o.coins, ownNullifier k x ∈ s.nullifiers
  once : (settled.flatMap (·.coins)).Nodup

theorem records_le (h more : List Seen) : records h ≤ records (h ++ more) := by
  simp [records]

/-- what is known of the labels of a block -/
structure Labelled (k : UserKeyPair) (h h' : List Seen) (labels : List ((TransactionNote × List E.AeadCt) × Option Own)) :
    Prop where
  spends : ∀ y ∈ labels, ∀ x, Received k h' x → ownNullifier k x ∈ y.1.1.nullifiers → ∃ o, y.2 = some o ∧ x ∈ o.coins
  nullifiers : ∀ y ∈ labels, ∀ o, y.2 = some o → ∃ more, y.1.1.nullifiers = o.coins.map (ownNullifier k) ++ more

theorem labelled {made settled : List Own} {labels : List ((TransactionNote × List E.AeadCt) × Option Own)} {more : List Seen}
    (kept : Kept k h s w made settled)
    (own : ∀ y ∈ labels, ∀ o, y.2 = some o → o ∈ made ∧ y.1 = (o.note, o.memos))
    (foreign : ∀ y ∈ labels, y.2 = none → ∀ x, Received k (h ++ more) x → ownNullifier k x ∉ y.1.1.nullifiers)
    (apart : Apart k (h ++ more)) (calm : Calm k (h ++ more) (made.map (·.act))) : Labelled k h (h ++ more) labels := by
  refine ⟨fun y hy x hx hn => ?_, fun y hy o ho => ?_⟩
  · cases ho : y.2 with
    | none => exact absurd hn (foreign y hy ho x hx)
    | some o =>
      obtain ⟨hm, he⟩ := own y hy o ho
      obtain ⟨outs, whole⟩ := kept.whole o hm
      rw [he] at hn
      dsimp only at hn
      rw [whole.nullifiers, List.mem_append, List.mem_map] at hn
      rcases hn with ⟨x', hx', he'⟩ | hn
      · rw [← apart.among _ _ ((kept.coins o hm x' hx').1.append more) hx he']
        exact ⟨o, rfl, hx'⟩
      · exact absurd rfl (calm.foreign _ (List.mem_map.2 ⟨o, hm, rfl⟩) _ hn x hx)
  · obtain ⟨hm, he⟩ := own y hy o ho
    obtain ⟨outs, whole⟩ := kept.whole o hm
    rw [he]
    exact ⟨_, whole.nullifiers⟩

/-- the nullifiers of the coins of the labelled transactions are among those of the block -/
theorem coins_sublist : ∀ {labels : List ((TransactionNote × List E.AeadCt) × Option Own)},
    (∀ y ∈ labels, ∀ o, y.2 = some o → ∃ more, y.1.1.nullifiers = o.coins.map (ownNullifier k) ++ more) →
    (((labels.filterMap (·.2)).flatMap (·.coins)).map (ownNullifier k)).Sublist
      (((labels.map (·.1)).map (·.1)).flatMap TransactionNote.nullifiers)
  | [], _ => List.Sublist.refl _
  | y :: labels, hl => by
    have ih := coins_sublist (labels := labels) (fun z hz => hl z (List.mem_cons_of_mem _ hz))
    rw [List.map_cons, List.map_cons, List.flatMap_cons]
    cases ho : y.2 with
    | none =>
      rw [List.filterMap_cons_none ho]
      exact ih.trans (List.sublist_append_right _ _)
    | some o =>
      rw [List.filterMap_cons_some ho, List.flatMap_cons, List.map_append]
      obtain ⟨more, he⟩ := hl y List.mem_cons_self o ho
      rw [he, List.append_assoc]
      exact (List.Sublist.refl _).append (ih.trans (List.sublist_append_right _ _))

/-- the sum of the books of the labelled transactions of a block -/
theorem labels_sum {awaited : List RecordOpening} (code : AssetCode) :
    ∀ {labels : List ((TransactionNote × List E.AeadCt) × Option Own)},
    (∀ y ∈ labels, ∀ o, y.2 = some o → worth code (brings k awaited y.1) + o.act.takes k code =
      worth code (o.coins.map (·.1)) + o.act.gives k code) →
    worth code ((labels.map (·.1)).flatMap (brings k awaited)) + ((labels.filterMap (·.2)).map (·.act.takes k code)).sum =
      worth code (((labels.filterMap (·.2)).flatMap (·.coins)).map (·.1)) +
        ((labels.filterMap (·.2)).map (·.act.gives k code)).sum +
        worth code ((labels.filter (fun y => y.2.isNone)).flatMap (fun y => brings k awaited y.1))
  | [], _ => rfl
  | y :: labels, hl => by
    have ih := labels_sum (awaited := awaited) code (labels := labels) (fun z hz => hl z (List.mem_cons_of_mem _ hz))
    rw [List.map_cons, List.flatMap_cons, worth_append]
    cases ho : y.2 with
    | none =>
      rw [List.filterMap_cons_none (f := fun y : (TransactionNote × List E.AeadCt) × Option Own => y.2) ho, List.filter_cons_of_pos (by rw [ho]; rfl), List.flatMap_cons, worth_append]
      omega
    | some o =>
      have := hl y List.mem_cons_self o ho
      rw [List.filterMap_cons_some (f := fun y : (TransactionNote × List E.AeadCt) × Option Own => y.2) ho, List.filter_cons_of_neg (by rw [ho]; simp), List.flatMap_cons, List.map_append,
        worth_append, List.map_cons, List.sum_cons, List.map_cons, List.sum_cons]
      omega

/-- the change of something a wallet did is awaited, or it was in a block -/
theorem awaited_or_there (world : World d b k h s w) (unique : ∀ c c', .expecting c ∈ h → .expecting c' ∈ h →
    c'.commitment = c.commitment → c' = c) (expects : .expecting chg ∈ h) :
    chg ∈ w.changes ∨ ∃ t m pos, At h t m pos ∧ t.outputCommitments[0]? = some chg.commitment := by
  obtain ⟨before, after, he⟩ := List.append_of_mem expects
  rcases (worldOk world).change chg before after he (fun c' hc' hcc => unique chg c' expects hc' hcc) with h1 | ⟨t, m, pos, uid, h1, h2, -⟩
  · exact .inl h1.1
  · exact .inr ⟨t, m, pos, h1, h2⟩

theorem kept_of_busy {made settled : List Own} {gifts : List RecordOpening} (world : World d b k h0 s0 w0)
    (busy : Busy d b k h0 s0 w0 h s w made settled gifts) (apart : Apart k h) (calm : Calm k h (made.map (·.act))) :
    Kept k h s w made settled := by
  induction busy with
  | start => exact ⟨fun _ h => (nomatch h), fun _ h => (nomatch h), fun _ h => (nomatch h), fun _ h => (nomatch h), List.nodup_nil⟩
  | @act h s w w1 a coins chg t memos made settled gifts before does begun ih =>
    have world' := before.world world
    rw [List.append_assoc] at apart calm
    have kept := ih apart.prefix (calm.prefix (fun a ha => by
      rw [List.map_append]
      exact List.mem_append_left _ ha))
    have here : a ∈ (made ++ [(⟨a, coins, chg, t, memos⟩ : Own)]).map (·.act) := by simp
    have same := does.same world'
    refine ⟨fun o ho => ?_, fun o ho x hx => ?_, fun o ho => ?_, fun o ho => ?_, kept.once⟩
    · rcases List.mem_append.1 ho with ho | ho
      · exact kept.whole o ho
      · rw [List.mem_singleton.1 ho]
        exact does_whole world' does (calm.memos a here) (calm.others a here)
    · rw [records_begun, List.append_assoc]
      rcases List.mem_append.1 ho with ho | ho
      · obtain ⟨h1, h2, h3⟩ := kept.coins o ho x hx
        exact ⟨h1.append _, h2, h3.imp_left (same x).2⟩
      · rw [List.mem_singleton.1 ho] at hx
        have hh := does.held world' x hx
        exact ⟨(C59_sound world' x hh).1.append _, held_before world' hh, .inl ((same x).2 hh)⟩
    · rcases List.mem_append.1 ho with ho | ho
      · exact List.mem_append_left _ (List.mem_append_left _ (kept.expects o ho))
      · rw [List.mem_singleton.1 ho]
        exact List.mem_append_right _ List.mem_cons_self
    · exact ⟨List.mem_append_left _ (kept.came o ho).1, (kept.came o ho).2⟩
  | @block h s w s1 w1 blind who time uid recv made settled gifts labels before own foreign valid inserted offset scanned ih =>
    have world' := before.world world
    have kept := ih apart.prefix (calm.prefix (fun a ha => ha))
    have lab := labelled kept own foreign apart calm
    have world1 := World.block (time := time) world' valid inserted offset scanned
    obtain ⟨f1, -⟩ := scan_facts world' inserted offset scanned
    obtain ⟨-, v1, v2, -⟩ := validateTxnsBatch_ok valid
    have old : ∀ n ∈ s.nullifiers, n ∈ s1.nullifiers := by
      intro n hn
      obtain ⟨t, m, pos, h1, h2⟩ := ((worldOk world').nulls n).1 hn
      exact ((worldOk world1).nulls n).2 ⟨t, m, pos, h1.mono _, h2⟩
    have sub := coins_sublist lab.nullifiers
    have new : ∀ o ∈ labels.filterMap (·.2), ∀ x ∈ o.coins,
        ownNullifier k x ∈ ((labels.map (·.1)).map (·.1)).flatMap TransactionNote.nullifiers := fun o ho x hx =>
      sub.subset (List.mem_map.2 ⟨x, List.mem_flatMap.2 ⟨o, ho, hx⟩, rfl⟩)
    have there : ∀ n ∈ ((labels.map (·.1)).map (·.1)).flatMap TransactionNote.nullifiers, n ∈ s1.nullifiers := by
      intro n hn
      obtain ⟨t, ht, hn⟩ := List.mem_flatMap.1 hn
      obtain ⟨u, hu, rfl⟩ := List.mem_map.1 ht
      obtain ⟨earlier, later, he⟩ := List.append_of_mem hu
      exact ((worldOk world1).nulls n).2 ⟨u.1, u.2, _, .last ⟨earlier, later, he, rfl⟩, hn⟩
    refine ⟨kept.whole, fun o ho x hx => ?_, fun o ho => List.mem_append_left _ (kept.expects o ho), fun o ho => ?_, ?_⟩
    · obtain ⟨h1, h2, h3⟩ := kept.coins o ho x hx
      refine ⟨h1.append _, h2.trans_le (records_le _ _), ?_⟩
      rcases h3 with h3 | ⟨o', ho', hx'⟩
      · rcases f1 x h3 with h4 | ⟨t, ht, hn⟩
        · exact .inl h4
        · obtain ⟨y, hy, rfl⟩ := List.mem_map.1 ht
          obtain ⟨o', ho', hx'⟩ := lab.spends y hy x (h1.append _) hn
          exact .inr ⟨o', List.mem_append_right _ (List.mem_filterMap.2 ⟨y, hy, ho'⟩), hx'⟩
      · exact .inr ⟨o', List.mem_append_left _ ho', hx'⟩
    · rcases List.mem_append.1 ho with ho | ho
      · exact ⟨(kept.came o ho).1, fun x hx => old _ ((kept.came o ho).2 x hx)⟩
      · obtain ⟨y, hy, he⟩ := List.mem_filterMap.1 ho
        exact ⟨(own y hy o he).1, fun x hx => there _ (new o ho x hx)⟩
    · rw [List.flatMap_append, List.nodup_append]
      refine ⟨kept.once, List.Nodup.of_map _ (sub.nodup v1), fun x hx z hz he => ?_⟩
      subst he
      obtain ⟨o, ho, hx⟩ := List.mem_flatMap.1 hx
      obtain ⟨o', ho', hz⟩ := List.mem_flatMap.1 hz
      exact v2 _ (new o' ho' x hz) ((kept.came o ho).2 x hx)
  | @granted h s w ro s1 made settled gifts before ok ih =>
    have kept := ih apart.prefix (calm.prefix (fun a ha => ha))
    refine ⟨kept.whole, fun o ho x hx => ?_, fun o ho => List.mem_append_left _ (kept.expects o ho), fun o ho => ?_, kept.once⟩
    · obtain ⟨h1, h2, h3⟩ := kept.coins o ho x hx
      exact ⟨h1.append _, h2.trans_le (records_le _ _), h3⟩
    · rw [(LedgerState.grant_ok ok).2.2.1]
      exact kept.came o ho
  | @told h s w ro uid made settled gifts before mine unfrozen there unspent new ih =>
    have kept := ih apart.prefix (calm.prefix (fun a ha => ha))
    refine ⟨kept.whole, fun o ho x hx => ?_, fun o ho => List.mem_append_left _ (kept.expects o ho), kept.came, kept.once⟩
    obtain ⟨h1, h2, h3⟩ := kept.coins o ho x hx
    exact ⟨h1.append _, h2.trans_le (records_le _ _), h3.imp_left (fun h => Wallet.holds_add.2 (.inr h))⟩
  | reordered before same ih =>
    have kept := ih apart calm
    refine ⟨kept.whole, fun o ho x hx => ?_, kept.expects, kept.came, kept.once⟩
    obtain ⟨h1, h2, h3⟩ := kept.coins o ho x hx
    exact ⟨h1, h2, h3.imp_left (same.holds x).2⟩

omit S in
/-- two ways to list the records of an asset -/
theorem coins_total {code : AssetCode} {l m : List (RecordOpening × U64)} (hl : Coins w code l) (hm : Coins w code m) :
    total (l.map (·.1)) = total (m.map (·.1)) :=
  total_perm ((List.perm_ext_iff_of_nodup hl.1 hm.1).2 fun x => by rw [hl.2, hm.2])

/-- the books of one block -/
theorem block_books {made settled : List Own} {s1 : LedgerState}
    {labels : List ((TransactionNote × List E.AeadCt) × Option Own)} (world : World d b k h s w)
    (kept : Kept k h s w made settled)
    (own : ∀ y ∈ labels, ∀ o, y.2 = some o → o ∈ made ∧ y.1 = (o.note, o.memos))
    (foreign : ∀ y ∈ labels, y.2 = none → ∀ x, Received k (h ++ [.block (labels.map (·.1)) blind who time]) x →
      ownNullifier k x ∉ y.1.1.nullifiers)
    (valid : validateTxnsBatch d s ((labels.map (·.1)).map (·.1)) time = .ok ())
    (inserted : s.insertBlock d.val ⟨(labels.map (·.1)).map (·.1), blind, who⟩ = .ok s1)
    (offset : uid.val = s.leaves.length)
    (scanned : w.scanBlock b ((labels.map (·.1)).map (·.1)) ((labels.map (·.1)).map (·.2)) uid = .ok (w1, recv))
    (apart : Apart k (h ++ [.block (labels.map (·.1)) blind who time]))
    (calm : Calm k (h ++ [.block (labels.map (·.1)) blind who time]) (made.map (·.act)))
    (firsts : Firsts (h ++ [.block (labels.map (·.1)) blind who time]))
    {code : AssetCode} {before after : List (RecordOpening × U64)} (hb : Coins w code before) (ha : Coins w1 code after) :
    total (after.map (·.1)) + ((labels.filterMap (·.2)).map (·.act.takes k code)).sum =
      total (before.map (·.1)) + ((labels.filterMap (·.2)).map (·.act.gives k code)).sum +
        worth code ((labels.filter (fun y => y.2.isNone)).flatMap (fun y => brings k w.changes y.1)) := by
  classical
  have lab := labelled kept own foreign apart calm
  obtain ⟨-, v1, v2, -⟩ := validateTxnsBatch_ok valid
  have expecting : ∀ {c}, .expecting c ∈ h → .expecting c ∈ h ++ [.block (labels.map (·.1)) blind who time] :=
    fun hc => List.mem_append_left _ hc
  have unique : ∀ c ∈ w.changes, ∀ c' ∈ w.changes, c.commitment = c'.commitment → c = c' := fun c hc c' hc' he =>
    calm.changes c' c (expecting ((worldOk world).changes c' hc').1) (expecting ((worldOk world).changes c hc).1) he
  have flat : [labels.map (·.1)].flatten = labels.map (·.1) := by simp
  obtain ⟨kept', nd, mk, perm⟩ := C101_account world (.block (time := time) valid inserted offset scanned .done) apart unique (by
    rw [flat]
    refine ⟨firsts.last.1, fun x hx hp t ht hn => ?_⟩
    obtain ⟨y, hy, rfl⟩ := List.mem_map.1 ht
    obtain ⟨o, ho, hxo⟩ := lab.spends y hy x hx hn
    have := (kept.coins o (own y hy o ho).1 x hxo).2.1
    omega) hb ha
  rw [flat] at mk perm
  set spent := (labels.filterMap (·.2)).flatMap (·.coins) with hs
  have sub := coins_sublist lab.nullifiers
  have once : spent.Nodup := List.Nodup.of_map _ (sub.nodup v1)
  have split : before.Perm (kept' ++ spent.filter (fun x => x.1.asset_def.code = code)) := by
    refine (List.perm_ext_iff_of_nodup hb.1 ?_).2 fun x => ?_
    · rw [List.nodup_append]
      refine ⟨nd, once.filter _, fun x hx z hz he => ?_⟩
      subst he
      obtain ⟨o, ho, hz⟩ := List.mem_flatMap.1 (List.mem_filter.1 hz).1
      obtain ⟨y, hy, he⟩ := List.mem_filterMap.1 ho
      obtain ⟨more, hn⟩ := lab.nullifiers y hy o he
      exact ((mk x).1 hx).2 _ (List.mem_map.2 ⟨y, hy, rfl⟩) (by
        rw [hn]
        exact List.mem_append_left _ (List.mem_map.2 ⟨x, hz, rfl⟩))
    · rw [List.mem_append, List.mem_filter, decide_eq_true_iff, mk]
      constructor
      · intro hx
        by_cases hn : ∀ t ∈ labels.map (·.1), ownNullifier k x ∉ t.1.nullifiers
        · exact .inl ⟨hx, hn⟩
        · push Not at hn
          obtain ⟨t, ht, hn⟩ := hn
          obtain ⟨y, hy, rfl⟩ := List.mem_map.1 ht
          obtain ⟨h1, h2⟩ := (hb.2 x).1 hx
          obtain ⟨o, ho, hxo⟩ := lab.spends y hy x ((C59_sound world x h1).1.append _) hn
          exact .inr ⟨List.mem_flatMap.2 ⟨o, List.mem_filterMap.2 ⟨y, hy, ho⟩, hxo⟩, h2⟩
      · rintro (⟨hx, -⟩ | ⟨hx, hc⟩)
        · exact hx
        · refine (hb.2 x).2 ⟨?_, hc⟩
          obtain ⟨o, ho, hxo⟩ := List.mem_flatMap.1 hx
          obtain ⟨y, hy, he⟩ := List.mem_filterMap.1 ho
          refine (kept.coins o (own y hy o he).1 x hxo).2.2.resolve_right ?_
          rintro ⟨o', ho', hx'⟩
          exact v2 _ (sub.subset (List.mem_map.2 ⟨x, hx, rfl⟩)) ((kept.came o' ho').2 x hx')
  have t1 := total_perm split
  rw [List.map_append, total_append] at t1
  have t2 : total (after.map (·.1)) = total (kept'.map (·.1)) + worth code ((labels.map (·.1)).flatMap (brings k w.changes)) := by
    unfold worth
    rw [← total_append]
    exact (perm.map _).sum_eq
  have t3 : total ((spent.filter (fun x => x.1.asset_def.code = code)).map (·.1)) = worth code (spent.map (·.1)) := by
    unfold worth
    rw [List.filter_map]
    rfl
  have t4 := labels_sum (k := k) (awaited := w.changes) code (labels := labels) (fun y hy o ho => by
    obtain ⟨hm, he⟩ := own y hy o ho
    obtain ⟨outs, whole⟩ := kept.whole o hm
    have waits : o.chg ∈ w.changes := by
      refine (awaited_or_there world (fun c c' h1 h2 => calm.changes c c' (expecting h1) (expecting h2))
        (kept.expects o hm)).resolve_right ?_
      rintro ⟨t, m, pos, h1, h2⟩
      refine firsts.last.2 t m pos h1 _ (List.mem_map.2 ⟨y, hy, rfl⟩) ?_
      rw [he, h2]
      dsimp only
      rw [whole.outputs]
      rfl
    rw [he, whole.brings unique waits]
    exact whole.books code)
  rw [← hs] at t4
  omega

/-- **The books on a busy ledger.**  Of everything a wallet did, only what came into a block is booked, and once; what others did
adds what it brings. -/
theorem C102_books {made settled : List Own} {gifts : List RecordOpening} (world : World d b k h0 s0 w0)
    (busy : Busy d b k h0 s0 w0 h s w made settled gifts) (apart : Apart k h) (calm : Calm k h (made.map (·.act)))
    (firsts : Firsts h) {code : AssetCode} {before after : List (RecordOpening × U64)} (hb : Coins w0 code before)
    (ha : Coins w code after) :
    total (after.map (·.1)) + (settled.map (·.act.takes k code)).sum =
      total (before.map (·.1)) + (settled.map (·.act.gives k code)).sum + worth code gifts := by
  induction busy generalizing after with
  | start =>
    rw [coins_total ha hb]
    rfl
  | @act h s w w1 a coins chg t memos made settled gifts earlier does begun ih =>
    rw [List.append_assoc] at apart calm firsts
    refine ih apart.prefix (calm.prefix (fun a ha => by
      rw [List.map_append]
      exact List.mem_append_left _ ha)) firsts.prefix ⟨ha.1, fun x => ?_⟩
    rw [ha.2, does.same (earlier.world world)]
  | @block h s w s1 w1 blind who time uid recv made settled gifts labels earlier own foreign valid inserted offset scanned ih =>
    obtain ⟨middle, hm⟩ := coins_exist w code
    have t1 := ih apart.prefix (calm.prefix (fun a ha => ha)) firsts.prefix hm
    have t2 := block_books (earlier.world world)
      (kept_of_busy world earlier apart.prefix (calm.prefix (fun a ha => ha)))
      own foreign valid inserted offset scanned apart calm firsts hm ha
    rw [List.map_append, List.sum_append, List.map_append, List.sum_append, worth_append]
    omega
  | granted earlier ok ih => exact ih apart.prefix (calm.prefix (fun a ha => ha)) firsts.prefix ha
  | @told h s w ro uid made settled gifts earlier mine unfrozen there unspent new ih =>
    obtain ⟨middle, hm⟩ := coins_exist w code
    have t1 := ih apart.prefix (calm.prefix (fun a ha => ha)) firsts.prefix hm
    rw [worth_append, worth_cons, show worth code [] = 0 from rfl]
    by_cases hc : code = ro.asset_def.code
    · have hm' : Coins (w.addRecordOpening ro uid) code ((ro, uid) :: middle) := by
        refine ⟨List.nodup_cons.2 ⟨fun hx => new ((hm.2 _).1 hx).1, hm.1⟩, fun x => ?_⟩
        rw [List.mem_cons, hm.2, Wallet.holds_add]
        constructor
        · rintro (rfl | ⟨h1, h2⟩)
          · exact ⟨.inl rfl, hc.symm⟩
          · exact ⟨.inr h1, h2⟩
        · rintro ⟨h1 | h1, h2⟩
          · exact .inl h1
          · exact .inr ⟨h1, h2⟩
      rw [coins_total ha hm', List.map_cons, total_cons, if_pos hc]
      dsimp only
      omega
    · have hm' : Coins (w.addRecordOpening ro uid) code middle := by
        refine ⟨hm.1, fun x => ?_⟩
        rw [hm.2, Wallet.holds_add]
        constructor
        · rintro ⟨h1, h2⟩
          exact ⟨.inr h1, h2⟩
        · rintro ⟨rfl | h1, h2⟩
          · exact absurd h2.symm hc
          · exact ⟨h1, h2⟩
      rw [coins_total ha hm', if_neg hc]
      omega
  | reordered earlier same ih =>
    exact ih apart calm firsts ⟨ha.1, fun x => by rw [ha.2, same.holds]⟩

/-- **No coin is booked twice, and no coin gets lost**: what the wallet did came into blocks with different coins; and every coin
that it ever gave away is still there, or went with something that came into a block. -/
theorem C102_coins {made settled : List Own} {gifts : List RecordOpening} (world : World d b k h0 s0 w0)
    (busy : Busy d b k h0 s0 w0 h s w made settled gifts) (apart : Apart k h) (calm : Calm k h (made.map (·.act))) :
    (∀ o ∈ settled, o ∈ made) ∧ (settled.flatMap (·.coins)).Nodup ∧
      ∀ o ∈ made, ∀ x ∈ o.coins, w.Holds x ∨ ∃ o' ∈ settled, x ∈ o'.coins := by
  have kept := kept_of_busy world busy apart calm
  exact ⟨fun o ho => (kept.came o ho).1, kept.once, fun o ho x hx => (kept.coins o ho x hx).2.2⟩

/-- **A wallet that waits for each thing it does is a special case** (C100). -/
theorem C102_in_turn {acts : List Act} {h1 h' : List Seen} {s1 : LedgerState} {made settled : List Own} {gifts : List RecordOpening}
    (run : ActsInTurn d b k h1 s1 w1 acts h' s' w') (busy : Busy d b k h0 s0 w0 h1 s1 w1 made settled gifts) :
    ∃ own, own.map (·.act) = acts ∧ Busy d b k h0 s0 w0 h' s' w' (made ++ own) (settled ++ own) gifts := by
  induction run generalizing made settled with
  | done => exact ⟨[], rfl, by simpa using busy⟩
  | @act h s w w1 s1 w2 t memos coins chg blind who time uid recv a acts h' s' w' does begun valid inserted offset scanned rest ih =>
    have step := (busy.act does begun).block (labels := [((t, memos), some ⟨a, coins, chg, t, memos⟩)]) (time := time)
      (fun y hy o ho => by
        obtain rfl := List.mem_singleton.1 hy
        obtain rfl := Option.some.inj ho
        exact ⟨List.mem_append_right _ List.mem_cons_self, rfl⟩)
      (fun y hy ho => by
        obtain rfl := List.mem_singleton.1 hy
        exact (nomatch ho)) valid inserted offset scanned
    have step' : Busy d b k h0 s0 w0 (h ++ coins.map .spending ++ [.expecting chg] ++ [.block [(t, memos)] blind who time]) s1 w2
        (made ++ [⟨a, coins, chg, t, memos⟩]) (settled ++ [⟨a, coins, chg, t, memos⟩]) gifts := by
      simpa using step
    obtain ⟨own, e, last⟩ := ih step'
    exact ⟨⟨a, coins, chg, t, memos⟩ :: own, by rw [List.map_cons, e], by simpa using last⟩

end Cap

namespace Cap.Examples

open Toy Spec

/-! Alice mints 1000 of her asset for herself (C100).  Before the mint comes into a block, she is told of a record worth 50. -/

theorem ActsInTurn.mint_parts {d : Fin 256} {b : Build} {k : UserKeyPair} {h h' : List Seen} {s s' : LedgerState} {w w' : Wallet}
    {rng : MintRand} {ad : AssetDefinition} {amount fee : Amount} {owner : UserPubKey}
    (run : ActsInTurn d b k h s w [.mint rng ad amount owner fee] h' s' w') :
    ∃ coin chg note memo blind who time w1 s1, Minted k w rng ad amount owner fee coin chg note memo ∧
      Does d b k s w w1 (.mint rng ad amount owner fee) [coin] chg (.mint note) [memo] ∧
      World d b k (h ++ [coin].map .spending ++ [.expecting chg]) s w1 ∧
      validateTxnsBatch d s [.mint note] time = .ok () ∧ s.insertBlock d.val ⟨[.mint note], blind, who⟩ = .ok s1 := by
  cases run with
  | act does begun valid inserted offset scanned rest =>
    cases rest
    have does' := does
    cases does with
    | mint mine then_ known made minted => exact ⟨_, _, _, _, _, _, _, _, _, minted, does', begun, valid, inserted⟩

/-- the records Alice gets to know of -/
def mine102 : List (RecordOpening × U64) := [(feeRec, 0), (assetRec, 1), (chgM, 2), (own100, 3)]

theorem nullifiers102 : (mine102.map (ownNullifier alice)).Nodup := by decide +kernel

/-- what Alice has seen before the block -/
def seen102 : List Seen := told100 ++ [(feeRec, (0 : U64))].map .spending ++ [.expecting chgM] ++ [.told assetRec 1]

theorem calm102 {note : MintNote} {memo : Toy.E.AeadCt} {blind : F} {who : UserPubKey} {time : U64}
    (minted : Minted alice walletA mintRand asset 1000 alice.pubKey 7 (feeRec, 0) chgM note memo) :
    Apart alice (seen102 ++ [.block [(.mint note, [memo])] blind who time]) ∧
    Calm alice (seen102 ++ [.block [(.mint note, [memo])] blind who time]) [act100] ∧
    Firsts (seen102 ++ [.block [(.mint note, [memo])] blind who time]) := by
  have hat : ∀ {t : TransactionNote} {m : List Toy.E.AeadCt} {pos : ℕ},
      At (seen102 ++ [.block [(.mint note, [memo])] blind who time]) t m pos → t = .mint note ∧ m = [memo] ∧ pos = 2 := by
    intro t m pos a
    rcases a.cases with a | ⟨txns, blind, who, time, n, h1, h2, rfl⟩
    · exfalso
      obtain ⟨before, txns, blind, who, time, after, -, -, h1, -⟩ := a
      have : Seen.block txns blind who time ∈ seen102 := by
        rw [h1]; simp
      simp [seen102, told100, seen0] at this
    · cases h1
      rcases h2.cases with ⟨h3, h4⟩ | ⟨m, -, h3⟩
      · cases h3
        exact ⟨rfl, rfl, by rw [h4]; rfl⟩
      · exact (nomatch h3.mem)
  have expects : ∀ {c : RecordOpening}, .expecting c ∈ seen102 ++ [.block [(.mint note, [memo])] blind who time] → c = chgM := by
    intro c hc
    simpa [seen102, told100, seen0] using hc
  have hr : ∀ x, Received alice (seen102 ++ [.block [(.mint note, [memo])] blind who time]) x → x ∈ mine102 := by
    intro x hx
    cases hx with
    | told mem =>
      simp only [seen102, told100, seen0, List.cons_append, List.nil_append, List.mem_cons, List.not_mem_nil, or_false,
        reduceCtorEq, false_or, Seen.told.injEq, List.map_cons, List.map_nil] at mem
      rcases mem with ⟨h1, h2⟩ | ⟨h1, h2⟩
      · rw [h1, h2]
        simp [mine102]
      · rw [h1, h2]
        simp [mine102]
    | memo a o m op p =>
      rename_i t ms pos j rc c ro uid
      obtain ⟨e1, e2, e3⟩ := hat a
      rw [e1] at o
      rw [e2] at m
      have hj : j = 0 := by
        have := (List.getElem?_eq_some_iff.1 m).1
        simp only [List.length_cons, List.length_nil] at this
        omega
      subst hj
      cases m
      have g1' : (TransactionNote.mint note).outputCommitments[0 + 1]? = some own100.commitment := by
        rw [show own100.commitment = note.mint_comm from minted.minted.1.symm]
        rfl
      rw [g1'] at o
      rw [← Option.some.inj o, C35_round_trip _ own100 _ _ _ rfl minted.memo] at op
      rw [e3] at p
      rw [← Except.ok.inj op, show uid = 3 from Fin.ext p]
      simp [mine102]
    | change wt a o p =>
      rename_i t ms pos chg uid
      obtain ⟨-, -, e3⟩ := hat a
      rw [e3] at p
      rw [expects wt, show uid = 2 from Fin.ext p]
      simp [mine102]
  refine ⟨⟨fun x y hx hy hn => List.inj_on_of_nodup_map nullifiers102 (hr x hx) (hr y hy) hn, fun x hx t m pos a hp => ?_⟩,
    ⟨fun c c' h1 h2 _ => by rw [expects h1, expects h2], fun a ha n hn => ?_, fun a ha r ro c ro' ht h1 h2 => ?_,
      fun a ha ro hm => ?_⟩, ?_⟩
  · exfalso
    have h1 := hr x hx
    have : x.2.val ≤ 3 := by
      simp only [mine102, List.mem_cons, List.not_mem_nil, or_false] at h1
      rcases h1 with rfl | rfl | rfl | rfl <;> decide
    obtain ⟨rfl, -, rfl⟩ := hat a
    have hl : (TransactionNote.mint note).outputCommitments.length = 2 := rfl
    omega
  · obtain rfl := List.mem_singleton.1 ha
    exact (nomatch hn)
  · obtain rfl := List.mem_singleton.1 ha
    obtain ⟨rfl, rfl⟩ := ht
    have := (C35_round_trip _ own100 _ alice _ rfl h1).symm.trans h2
    exact (Except.ok.inj this).symm
  · obtain rfl := List.mem_singleton.1 ha
    exact (nomatch hm)
  · simp [Firsts, seen102, told100, seen0]

/-- Alice begins to mint, is told of the record, and then the mint comes into a block. -/
theorem runs102 : ∃ note memo blind who time w1 s2 w2,
    Minted alice walletA mintRand asset 1000 alice.pubKey 7 (feeRec, 0) chgM note memo ∧
    validateTxnsBatch 2 led0 [.mint note] time = .ok () ∧
    Busy 2 .debug alice told100 led0 walletA seen102 led0 w1 [⟨act100, [(feeRec, 0)], chgM, .mint note, [memo]⟩] [] [assetRec] ∧
    Busy 2 .debug alice told100 led0 walletA (seen102 ++ [.block [(.mint note, [memo])] blind who time]) s2 w2
      [⟨act100, [(feeRec, 0)], chgM, .mint note, [memo]⟩] [⟨act100, [(feeRec, 0)], chgM, .mint note, [memo]⟩] [assetRec] := by
  obtain ⟨i, hi, hwal⟩ := issuing1
  have hold : ∀ x, i.wallet.Holds x ↔ x = (feeRec, 0) := by
    rw [hwal]
    exact walletA_holds
  obtain ⟨i', note, sig, memo, h1, -, -, -, -, h2⟩ := C63_mints_partial (rng := mintRand) (fee := 7) (amount := 1000)
    (owner := alice.pubKey) Toy.complete Toy.batch hi
    (by simpa using coin_only (more := []) (by simp)) (fun x hx _ => by rw [(hold x).1 hx]; rfl)
    ⟨_, (hold _).2 rfl, rfl, by decide⟩ (x := declared1) (List.mem_singleton.2 rfl) (fun y hy _ => List.mem_singleton.1 hy)
    (by decide) ⟨_, rfl⟩
  obtain ⟨ad, h', s', w', had, run, -⟩ := C100_mint_goes_on hi h1 (h2 5) ⟨by decide, by decide⟩ (47 : ZMod p) bob.pubKey
  rw [hwal] at run
  obtain rfl : ad = asset := by
    have := C63_kept hi (x := declared1) (List.mem_singleton.2 rfl) (fun y hy _ => List.mem_singleton.1 hy)
    exact Option.some.inj (had.symm.trans this)
  clear h1 h2
  obtain ⟨coin, chg, note, memo, blind, who, time, w1, s1, minted, does, begun, valid, inserted⟩ := ActsInTurn.mint_parts run
  obtain rfl := (walletA_holds coin).1 minted.held.1
  have hg : chg = chgM := by
    have hv := minted.fee_value
    change 100 = chg.amount.val + 7 at hv
    have ha : chg.amount = 93 := Fin.ext (show chg.amount.val = 93 by omega)
    obtain ⟨c1, c2, c3, c4⟩ := minted.change
    obtain ⟨a, ad, pk, ff, bl⟩ := chg
    dsimp only at ha c1 c2 c3 c4
    subst ha c1 c2 c3 c4
    rfl
  subst hg
  let o : Own := ⟨act100, [(feeRec, 0)], chgM, .mint note, [memo]⟩
  have b1 : Busy 2 .debug alice told100 led0 walletA _ led0 w1 [o] [] [] := Busy.start.act does begun
  have b2 : Busy 2 .debug alice told100 led0 walletA seen102 led0 (w1.addRecordOpening assetRec 1) [o] [] [assetRec] :=
    b1.told (uid := 1) rfl rfl rfl (by simp [led0]) (fun hh => by
      have := (walletA_holds _).1 ((does.same worldA _).1 hh)
      exact absurd (congrArg (fun x : RecordOpening × U64 => x.2.val) this) (by decide))
  obtain ⟨w2, recv, scanned⟩ := world_scans (b2.world worldA) (txns := [(.mint note, [memo])]) inserted (uid := 2) rfl (by simp; rfl)
  have b3 := b2.block (labels := [((.mint note, [memo]), some o)]) (time := time) (fun y hy o' ho => by
      obtain rfl := List.mem_singleton.1 hy
      obtain rfl := Option.some.inj ho
      exact ⟨List.mem_cons_self, rfl⟩) (fun y hy ho => by
      obtain rfl := List.mem_singleton.1 hy
      exact (nomatch ho)) valid inserted rfl scanned
  have b3' : Busy 2 .debug alice told100 led0 walletA (seen102 ++ [.block [(.mint note, [memo])] blind who time]) s1 w2
      [o] [o] [assetRec] := b3
  exact ⟨note, memo, blind, who, time, _, s1, w2, minted, valid, b2, b3'⟩

/-- While the mint is under way, Alice has 100 native and 50 of the asset; once it is in a block, 93 and 1050. -/
example : ∃ o h1 s1 w1 h2 s2 w2, o.act = act100 ∧
    Busy 2 .debug alice told100 led0 walletA h1 s1 w1 [o] [] [assetRec] ∧
    Busy 2 .debug alice told100 led0 walletA h2 s2 w2 [o] [o] [assetRec] ∧
    ∀ native of_asset native' of_asset', Coins w1 nativeCode native → Coins w1 asset.code of_asset →
      Coins w2 nativeCode native' → Coins w2 asset.code of_asset' →
      (total (native.map (·.1)) = 100 ∧ total (of_asset.map (·.1)) = 50) ∧
      (total (native'.map (·.1)) = 93 ∧ total (of_asset'.map (·.1)) = 1050) := by
  obtain ⟨note, memo, blind, who, time, w1, s2, w2, minted, -, b2, b3'⟩ := runs102
  obtain ⟨apart, calm, firsts⟩ := calm102 (blind := blind) (who := who) (time := time) minted
  refine ⟨_, _, _, _, _, _, _, rfl, b2, b3', fun native of_asset native' of_asset' hn ha hn' ha' => ?_⟩
  have a1 := C102_books worldA b2 apart.prefix (calm.prefix (fun _ h => h)) firsts.prefix coins100.1 hn
  have a2 := C102_books worldA b2 apart.prefix (calm.prefix (fun _ h => h)) firsts.prefix (coins100.2 _ asset_code.1) ha
  have a3 := C102_books worldA b3' apart calm firsts coins100.1 hn'
  have a4 := C102_books worldA b3' apart calm firsts (coins100.2 _ asset_code.1) ha'
  change _ + 0 = 100 + 0 + worth nativeCode [assetRec] at a1
  change _ + 0 = 0 + 0 + worth asset.code [assetRec] at a2
  change _ + ([act100].map (fun a => a.takes alice nativeCode)).sum =
    100 + ([act100].map (fun a => a.gives alice nativeCode)).sum + worth nativeCode [assetRec] at a3
  change _ + ([act100].map (fun a => a.takes alice asset.code)).sum =
    0 + ([act100].map (fun a => a.gives alice asset.code)).sum + worth asset.code [assetRec] at a4
  rw [show worth nativeCode [assetRec] = 0 by decide +kernel] at a1 a3
  rw [show worth asset.code [assetRec] = 50 by decide +kernel] at a2 a4
  rw [show ([act100].map (fun a => a.takes alice nativeCode)).sum = 7 by decide +kernel,
    show ([act100].map (fun a => a.gives alice nativeCode)).sum = 0 by decide +kernel] at a3
  rw [show ([act100].map (fun a => a.takes alice asset.code)).sum = 0 by decide +kernel,
    show ([act100].map (fun a => a.gives alice asset.code)).sum = 1000 by decide +kernel] at a4
  omega

/-! Bob does nothing, and somebody else mints 1000 of the asset for them (C101). -/

example : ∃ h1 s1 w1, Busy 2 .debug bob seen101 led101 wallet101 h1 s1 w1 [] [] [mintRec] ∧
    ∀ before after, Coins wallet101 asset.code before → Coins w1 asset.code after →
      total (after.map (·.1)) = total (before.map (·.1)) + 1000 := by
  obtain ⟨s1, inserted⟩ : ∃ s1, led101.insertBlock 2 ⟨[tx101.1], (1 : ZMod p), bob.pubKey⟩ = .ok s1 :=
    insertBlock_iff.2 ⟨⟨by decide, by decide⟩, by
      show richNote1.aux_info.fee.val + 0 < _
      have := richNote1.aux_info.fee.isLt
      omega⟩
  obtain ⟨w1, recv, scanned⟩ := world_scans world101 (txns := [tx101]) inserted (uid := 2) rfl (by
    intro t ht
    obtain rfl := List.mem_singleton.1 ht
    rfl)
  obtain ⟨apart2, free2⟩ := received101 (.inl ⟨rfl, rfl⟩) (blind := (1 : ZMod p)) (blind' := (1 : ZMod p)) (who := bob.pubKey)
    (who' := bob.pubKey) (time := 5) (time' := 5)
  have foreign : ∀ x, Received bob (seen101 ++ [.block [tx101] (1 : ZMod p) bob.pubKey 5]) x →
      ownNullifier bob x ∉ tx101.1.nullifiers := by
    intro x hx
    by_cases hp : 2 ≤ x.2.val
    · exact free2.spends x (hx.append _) hp tx101 List.mem_cons_self
    · have late : ∀ {t : TransactionNote} {m : List Toy.E.AeadCt} {pos : ℕ},
          At (seen101 ++ [.block [tx101] (1 : ZMod p) bob.pubKey 5]) t m pos → 2 ≤ pos := by
        intro t m pos a
        rcases a.cases with a | ⟨txns, blind, who, time, n, -, -, rfl⟩
        · exfalso
          obtain ⟨before, txns, blind, who, time, after, -, -, h1, -⟩ := a
          have : Seen.block txns blind who time ∈ seen101 := by rw [h1]; simp
          simp [seen101] at this
        · exact Nat.le_add_right 2 n
      cases hx with
      | told mem =>
        simp only [seen101, List.cons_append, List.nil_append, List.mem_cons, List.not_mem_nil, or_false, reduceCtorEq,
          false_or, Seen.told.injEq] at mem
        rw [mem.1, mem.2]
        show _ ∉ [richNote1.input_nullifier]
        rw [List.mem_singleton]
        decide +kernel
      | memo a o m op p =>
        have := late a
        dsimp only at hp
        omega
      | change wt a o p =>
        have := late a
        dsimp only at hp
        omega
  have b1 := (Busy.start (d := 2) (b := .debug) (k := bob) (h0 := seen101) (s0 := led101) (w0 := wallet101)).block
    (labels := [(tx101, none)]) (time := 5) (blind := (1 : ZMod p)) (who := bob.pubKey)
    (fun y hy o ho => by
      obtain rfl := List.mem_singleton.1 hy
      exact (nomatch ho))
    (fun y hy _ => by
      obtain rfl := List.mem_singleton.1 hy
      exact foreign) (valid101 5).1 inserted rfl scanned
  have gift : brings bob wallet101.changes tx101 = [mintRec] := by
    have := brings101
    rw [List.flatMap_cons] at this
    have no : [richFee2.fee_chg_ro].find? (fun c => c.commitment = richFee1.fee_chg_ro.commitment) = none := by decide +kernel
    have rest : ([mintRec.commitment].zip [memo101]).filterMap (tells bob) = [mintRec] := by
      rw [List.zip_cons_cons, List.zip_nil_left, List.filterMap_cons_some
        (tells_some.2 ⟨rfl, C35_round_trip 0 mintRec [] bob memo101 rfl memo101_eq⟩), List.filterMap_nil]
    unfold brings givesBack
    rw [outputs101.1]
    change ([richFee2.fee_chg_ro].find? (fun c => c.commitment = richFee1.fee_chg_ro.commitment)).toList ++
      ([mintRec.commitment].zip [memo101]).filterMap (tells bob) = _
    rw [no, rest]
    rfl
  have b1' : Busy 2 .debug bob seen101 led101 wallet101 (seen101 ++ [.block [tx101] (1 : ZMod p) bob.pubKey 5]) s1 w1 [] []
      [mintRec] := by
    have e : [] ++ [((tx101, none) : (TransactionNote × List Toy.E.AeadCt) × Option Own)].flatMap
        (fun y => brings bob wallet101.changes y.1) = [mintRec] := by
      rw [List.nil_append, List.flatMap_cons, List.flatMap_nil, List.append_nil]
      exact gift
    rw [← e]
    exact b1
  refine ⟨_, _, _, b1', fun before after hb ha => ?_⟩
  have a := C102_books world101 b1' (Apart.prefix apart2) ⟨fun c c' h1 h2 _ => by
      have e1 : c = richFee2.fee_chg_ro := by simpa [seen101] using h1
      have e2 : c' = richFee2.fee_chg_ro := by simpa [seen101] using h2
      rw [e1, e2], fun _ h => (nomatch h), fun _ h => (nomatch h), fun _ h => (nomatch h)⟩
    (by simp [Firsts, seen101]) hb ha
  rw [show worth asset.code [mintRec] = 1000 by decide +kernel] at a
  exact a

end Cap.Examples
