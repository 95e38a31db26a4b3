/-
C103: an attempt stays open until it expires or something else takes one of its inputs.

status: proved
note: C103_open: something a wallet did that would have been accepted at some earlier time is accepted now if and only if it has not expired, none of its coins went with something of the wallet that came into a block, and none of its inputs of others (records it freezes or releases) is spent. C103_settles: what is open can be settled: with room in the tree its block goes through, the wallet scans it and goes on. C103_closed: once one of its coins went with something, also with itself, no block with it is accepted any more, whatever happens later. C103_rivals: of several attempts that share a coin, at most one is settled. For histories as in C102, with different nullifiers for the records of the wallet and no clash of memos.
-/
import Verif.Props.C72
import Verif.Props.C102

namespace Cap

open Spec

variable [E : CapEnv] [S : CapExt] {d : Fin 256} {b : Build} {k : UserKeyPair} {h h0 h1 more : List Seen}
  {s s' s0 s1 s2 : LedgerState} {w w' w0 w1 w2 : Wallet} {made settled : List Own} {gifts : List RecordOpening} {o : Own} {time : U64}

/-- the ledger of a longer history goes on from that of a shorter one -/
theorem world_goes_on (before : World d b k h s w) (after : World d b k (h ++ more) s' w') :
    runFrom d s (ledgerEvents more) = .ok s' := by
  have h1 := world_run before
  have h2 := world_run after
  rw [ledgerEvents_append] at h2
  unfold run at h1 h2
  have split : ∀ {l m : List Event} {a b c : LedgerState}, runFrom d a l = .ok b → runFrom d a (l ++ m) = .ok c →
      runFrom d b m = .ok c := by
    intro l
    induction l with
    | nil =>
      intro m a b c e1 e2
      cases e1
      exact e2
    | cons e l ih =>
      intro m a b c e1 e2
      rw [runFrom, bind_ok_iff] at e1
      rw [List.cons_append, runFrom, bind_ok_iff] at e2
      obtain ⟨x, g1, g2⟩ := e1
      obtain ⟨y, g3, g4⟩ := e2
      rw [g1] at g3
      cases g3
      exact ih g2 g4
  exact split h1 h2

/-- **Open until something takes an input.**  Something that a wallet did and that would have been accepted at some time before
is accepted now exactly if it has not expired, none of its coins went with something else (or with itself), and none of the
inputs that are not coins of the wallet is spent. -/
theorem C103_open (batch : SnarkBatch) (world : World d b k h0 s0 w0)
    (busy : Busy d b k h0 s0 w0 h s w made settled gifts) (apart : Apart k h) (calm : Calm k h (made.map (·.act)))
    (mem : o ∈ made) {before : U64} (then_ : World d b k h1 s1 w1) (prefix_ : h = h1 ++ more)
    (acceptable : validateTxnsBatch d s1 [o.note] before = .ok ()) :
    validateTxnsBatch d s [o.note] time = .ok () ↔
      (∀ n, o.note = .transfer n → time ≤ n.aux_info.valid_until) ∧
      (∀ o' ∈ settled, ∀ x ∈ o.coins, x ∉ o'.coins) ∧ ∀ n ∈ o.act.foreign, n ∉ s.nullifiers := by
  have now := busy.world world
  have kept := kept_of_busy world busy apart calm
  obtain ⟨outs, whole⟩ := kept.whole o mem
  have now' := now
  rw [prefix_] at now'
  have run := world_goes_on then_ now'
  have fresh : ∀ n ∈ o.note.nullifiers, n ∉ s1.nullifiers := ((C51_any batch (by simp)).1 acceptable).2.2.1 _ List.mem_cons_self
  have open_ : (∀ t ∈ [o.note], ∀ x ∈ t.nullifiers, ∀ e ∈ ledgerEvents more, ∀ u ∈ e.txns, x ∉ u.note.nullifiers) ↔
      ∀ x ∈ o.note.nullifiers, x ∉ s.nullifiers := by
    constructor
    · intro hx x hn hs
      rcases ((runFrom_grows run).2 x).1 hs with h1 | ⟨e, he, u, hu, h1⟩
      · exact fresh x hn h1
      · exact hx _ List.mem_cons_self x hn e he u hu h1
    · intro hx t ht x hn e he u hu h1
      obtain rfl := List.mem_singleton.1 ht
      exact hx x hn (((runFrom_grows run).2 x).2 (.inr ⟨e, he, u, hu, h1⟩))
  rw [C72_stays batch (by simp) acceptable run time, open_, whole.nullifiers]
  refine and_congr ⟨fun hx n hn => hx n (by rw [hn]; exact List.mem_cons_self), fun hx n hn => hx n (List.mem_singleton.1 hn).symm⟩ ?_
  constructor
  · intro hx
    refine ⟨fun o' ho' x hxo hx' => ?_, fun n hn => hx n (List.mem_append_right _ hn)⟩
    exact hx _ (List.mem_append_left _ (List.mem_map.2 ⟨x, hxo, rfl⟩)) ((kept.came o' ho').2 x hx')
  · rintro ⟨h1, h2⟩ n hn
    rcases List.mem_append.1 hn with hn | hn
    · obtain ⟨x, hx, rfl⟩ := List.mem_map.1 hn
      rcases (kept.coins o mem x hx).2.2 with h3 | ⟨o', ho', hx'⟩
      · exact C59_fresh now apart x h3
      · exact absurd hx' (h1 o' ho' x hx)
    · exact h2 n hn

/-- **What is open can still be settled**: a block with it goes through, and the history goes on as one in which it is settled. -/
theorem C103_settles (world : World d b k h0 s0 w0)
    (busy : Busy d b k h0 s0 w0 h s w made settled gifts) (apart : Apart k h) (calm : Calm k h (made.map (·.act)))
    (mem : o ∈ made) (valid : validateTxnsBatch d s [o.note] time = .ok ())
    (room : Room d.val s (o.memos.length + 2)) (blind : F) (who : UserPubKey) :
    ∃ s1 w1, Busy d b k h0 s0 w0 (h ++ [.block [(o.note, o.memos)] blind who time]) s1 w1 made (settled ++ [o]) gifts := by
  have now := busy.world world
  obtain ⟨outs, whole⟩ := (kept_of_busy world busy apart calm).whole o mem
  have wo := worldOk now
  have len : o.note.outputCommitments.length = o.memos.length + 1 := by
    rw [whole.outputs, whole.lengths, List.length_map, List.length_cons]
  obtain ⟨s1, inserted⟩ := (insertBlock_iff (d := d.val) (b := ⟨[o.note], blind, who⟩) (s := s)).2 ⟨by
      have : o.note.outputLen = o.note.outputCommitments.length := by cases o.note <;> rfl
      show Room d.val s (o.note.outputLen + 0 + 1)
      rw [this, len]
      exact room, by
      show o.note.fee.val + 0 < _
      have := o.note.fee.isLt
      omega⟩
  obtain ⟨w1, recv, scanned⟩ := world_scans now (txns := [(o.note, o.memos)]) inserted (uid := ⟨s.leaves.length, wo.small⟩) rfl (by
    intro t ht
    obtain rfl := List.mem_singleton.1 ht
    exact len)
  have := busy.block (labels := [((o.note, o.memos), some o)]) (time := time) (fun y hy o' ho => by
      obtain rfl := List.mem_singleton.1 hy
      obtain rfl := Option.some.inj ho
      exact ⟨mem, rfl⟩) (fun y hy ho => by
      obtain rfl := List.mem_singleton.1 hy
      exact (nomatch ho)) valid inserted rfl scanned
  exact ⟨s1, w1, by simpa using this⟩

/-- **Closed for ever**: once one of its coins went with something that came into a block, also with itself, no block with it is
accepted any more, whatever happens later. -/
theorem C103_closed (world : World d b k h0 s0 w0)
    (busy : Busy d b k h0 s0 w0 h s w made settled gifts) (apart : Apart k h) (calm : Calm k h (made.map (·.act)))
    (mem : o ∈ made) {o' : Own} (went : o' ∈ settled) {x : RecordOpening × U64} (mine : x ∈ o.coins) (its : x ∈ o'.coins)
    (later : World d b k (h ++ more) s2 w2) {txns : List TransactionNote} (includes : o.note ∈ txns) :
    validateTxnsBatch d s2 txns time ≠ .ok () := by
  intro valid
  have kept := kept_of_busy world busy apart calm
  obtain ⟨outs, whole⟩ := kept.whole o mem
  have run := world_goes_on (busy.world world) later
  refine (validateTxnsBatch_ok valid).2.2.1 (ownNullifier k x) (List.mem_flatMap.2 ⟨_, includes, ?_⟩)
    (((runFrom_grows run).2 _).2 (.inl ((kept.came o' went).2 x its)))
  rw [whole.nullifiers]
  exact List.mem_append_left _ (List.mem_map.2 ⟨x, mine, rfl⟩)

/-- **Of several attempts with a coin in common, at most one is settled.** -/
theorem C103_rivals (world : World d b k h0 s0 w0)
    (busy : Busy d b k h0 s0 w0 h s w made settled gifts) (apart : Apart k h) (calm : Calm k h (made.map (·.act)))
    {i j : ℕ} {o o' : Own} (hi : settled[i]? = some o) (hj : settled[j]? = some o') {x : RecordOpening × U64}
    (mine : x ∈ o.coins) (its : x ∈ o'.coins) : i = j := by
  have once := (kept_of_busy world busy apart calm).once
  rw [List.nodup_flatMap] at once
  obtain ⟨li, rfl⟩ := List.getElem?_eq_some_iff.1 hi
  obtain ⟨lj, rfl⟩ := List.getElem?_eq_some_iff.1 hj
  have pw := List.pairwise_iff_getElem.1 once.2
  rcases Nat.lt_trichotomy i j with hl | hl | hl
  · exact absurd its (pw i j li lj hl mine)
  · exact hl
  · exact absurd mine (pw j i lj li hl its)

end Cap

namespace Cap.Examples

open Toy Spec

/-! Alice's mint of C102: it is open while it waits, can be settled, and is closed afterwards. -/

example : ∃ o w1, Busy 2 .debug alice told100 led0 walletA seen102 led0 w1 [o] [] [assetRec] ∧
    (∀ time : U64, validateTxnsBatch 2 led0 [o.note] time = .ok ()) ∧
    ∀ (blind : F) (who : UserPubKey) (time : U64), ∃ s2 w2,
      Busy 2 .debug alice told100 led0 walletA (seen102 ++ [.block [(o.note, o.memos)] blind who time]) s2 w2 [o] [o] [assetRec] := by
  obtain ⟨note, memo, blind, who, time, w1, s2, w2, minted, valid, b2, -⟩ := runs102
  obtain ⟨apart, calm, -⟩ := calm102 (blind := blind) (who := who) (time := time) minted
  have all : ∀ time : U64, validateTxnsBatch 2 led0 [.mint note] time = .ok () := fun time =>
    (C103_open Toy.batch worldA b2 apart.prefix (calm.prefix (fun _ h => h)) List.mem_cons_self worldA
      (more := [(feeRec, (0 : U64))].map .spending ++ [.expecting chgM] ++ [.told assetRec 1]) (by simp only [seen102, told100, List.append_assoc]) valid).2
      ⟨fun n hn => (nomatch hn), fun _ ho => (nomatch ho), fun n hn => (nomatch hn)⟩
  exact ⟨_, w1, b2, all, fun blind who time => C103_settles worldA b2 apart.prefix (calm.prefix (fun _ h => h))
    List.mem_cons_self (all time) (show Room 2 led0 3 from ⟨by decide, by decide⟩) blind who⟩

example : ∃ o h s w, Busy 2 .debug alice told100 led0 walletA h s w [o] [o] [assetRec] ∧
    ∀ (more : List Seen) (s2 : LedgerState) (w2 : Wallet) (time : U64), World 2 .debug alice (h ++ more) s2 w2 →
      validateTxnsBatch 2 s2 [o.note] time ≠ .ok () := by
  obtain ⟨note, memo, blind, who, time, w1, s2, w2, minted, valid, -, b3⟩ := runs102
  obtain ⟨apart, calm, -⟩ := calm102 (blind := blind) (who := who) (time := time) minted
  exact ⟨_, _, _, _, b3, fun more s2 w2 time later => C103_closed worldA b3 apart calm List.mem_cons_self List.mem_cons_self
    (x := (feeRec, 0)) List.mem_cons_self List.mem_cons_self later List.mem_cons_self⟩

/-! Alice makes a second mint, of 500, before the first is in a block: both are paid for with the same record. -/

def act103 : Act := .mint mintRand asset 500 alice.pubKey 7

def seen103 : List Seen := told100 ++ [(feeRec, (0 : U64))].map .spending ++ [.expecting chgM] ++
  [(feeRec, (0 : U64))].map .spending ++ [.expecting chgM]

theorem calm103 {note : MintNote} {memo : Toy.E.AeadCt} {blind : F} {who : UserPubKey} {time : U64}
    (minted : Minted alice walletA mintRand asset 1000 alice.pubKey 7 (feeRec, 0) chgM note memo) :
    Apart alice (seen103 ++ [.block [(.mint note, [memo])] blind who time]) ∧
    Calm alice (seen103 ++ [.block [(.mint note, [memo])] blind who time]) [act100, act103] := by
  have hat : ∀ {t : TransactionNote} {m : List Toy.E.AeadCt} {pos : ℕ},
      At (seen103 ++ [.block [(.mint note, [memo])] blind who time]) t m pos → t = .mint note ∧ m = [memo] ∧ pos = 2 := by
    intro t m pos a
    rcases a.cases with a | ⟨txns, blind, who, time, n, h1, h2, rfl⟩
    · exfalso
      obtain ⟨before, txns, blind, who, time, after, -, -, h1, -⟩ := a
      have : Seen.block txns blind who time ∈ seen103 := by
        rw [h1]; simp
      simp [seen103, told100, seen0] at this
    · cases h1
      rcases h2.cases with ⟨h3, h4⟩ | ⟨m, -, h3⟩
      · cases h3
        exact ⟨rfl, rfl, by rw [h4]; rfl⟩
      · exact (nomatch h3.mem)
  have expects : ∀ {c : RecordOpening}, .expecting c ∈ seen103 ++ [.block [(.mint note, [memo])] blind who time] → c = chgM := by
    intro c hc
    simpa [seen103, told100, seen0] using hc
  have hr : ∀ x, Received alice (seen103 ++ [.block [(.mint note, [memo])] blind who time]) x → x ∈ mine102 := by
    intro x hx
    cases hx with
    | told mem =>
      simp only [seen103, told100, seen0, List.cons_append, List.nil_append, List.mem_cons, List.not_mem_nil, or_false,
        reduceCtorEq, false_or, Seen.told.injEq, List.map_cons, List.map_nil] at mem
      rw [mem.1, mem.2]
      simp [mine102]
    | memo a o m op p =>
      rename_i t ms pos j rc c ro uid
      obtain ⟨e1, e2, e3⟩ := hat a
      rw [e1] at o
      rw [e2] at m
      have hj : j = 0 := by
        have := (List.getElem?_eq_some_iff.1 m).1
        simp only [List.length_cons, List.length_nil] at this
        omega
      subst hj
      cases m
      have g1' : (TransactionNote.mint note).outputCommitments[0 + 1]? = some own100.commitment := by
        rw [show own100.commitment = note.mint_comm from minted.minted.1.symm]
        rfl
      rw [g1'] at o
      rw [← Option.some.inj o, C35_round_trip _ own100 _ _ _ rfl minted.memo] at op
      rw [e3] at p
      rw [← Except.ok.inj op, show uid = 3 from Fin.ext p]
      simp [mine102]
    | change wt a o p =>
      rename_i t ms pos chg uid
      obtain ⟨-, -, e3⟩ := hat a
      rw [e3] at p
      rw [expects wt, show uid = 2 from Fin.ext p]
      simp [mine102]
  refine ⟨⟨fun x y hx hy hn => List.inj_on_of_nodup_map nullifiers102 (hr x hx) (hr y hy) hn, fun x hx t m pos a hp => ?_⟩,
    ⟨fun c c' h1 h2 _ => by rw [expects h1, expects h2], fun a ha n hn => ?_, fun a ha r ro c ro' ht h1 h2 => ?_,
      fun a ha ro hm => ?_⟩⟩
  · exfalso
    have h1 := hr x hx
    have : x.2.val ≤ 3 := by
      simp only [mine102, List.mem_cons, List.not_mem_nil, or_false] at h1
      rcases h1 with rfl | rfl | rfl | rfl <;> decide
    obtain ⟨rfl, -, rfl⟩ := hat a
    have hl : (TransactionNote.mint note).outputCommitments.length = 2 := rfl
    omega
  · rcases List.mem_pair.1 ha with rfl | rfl <;> exact (nomatch hn)
  · rcases List.mem_pair.1 ha with rfl | rfl <;>
    · obtain ⟨rfl, rfl⟩ := ht
      have := (C35_round_trip _ _ _ alice _ rfl h1).symm.trans h2
      exact (Except.ok.inj this).symm
  · rcases List.mem_pair.1 ha with rfl | rfl <;> exact (nomatch hm)

/-- Alice can mint any amount below the limit for herself, from any wallet with this record. -/
theorem mints103 {h : List Seen} {i : Issuer} (world : Issuing 2 .debug alice h led0 [declared1] i) (apart : Apart alice h)
    (hold : ∀ x, i.wallet.Holds x ↔ x = (feeRec, 0)) (a : Amount) (ha : a.val < 2 ^ 127) :
    ∃ i' note memo, Minted alice i.wallet mintRand asset a alice.pubKey 7 (feeRec, 0) chgM note memo ∧
      Does 2 .debug alice led0 i.wallet i'.wallet (.mint mintRand asset a alice.pubKey 7) [(feeRec, 0)] chgM (.mint note) [memo] ∧
      Issuing 2 .debug alice (h ++ [.spending (feeRec, 0), .expecting chgM]) led0 [declared1] i' ∧
      (∀ x, i'.wallet.Holds x ↔ x = (feeRec, 0)) ∧ ∀ time : U64, validateTxnsBatch 2 led0 [.mint note] time = .ok () := by
  obtain ⟨i', note, sig, memo, h1, -, -, -, -, h2⟩ := C63_mints_partial (rng := mintRand) (fee := 7) (amount := a)
    (owner := alice.pubKey) Toy.complete Toy.batch world apart (fun x hx _ => by rw [(hold x).1 hx]; rfl)
    ⟨_, (hold _).2 rfl, rfl, by decide⟩ (x := declared1) (List.mem_singleton.2 rfl) (fun y hy _ => List.mem_singleton.1 hy)
    ha ⟨_, rfl⟩
  obtain ⟨coin, ad, chg, had, minted, -, begun, same⟩ := C63_minted world h1
  obtain rfl : ad = asset := by
    have := C63_kept world (x := declared1) (List.mem_singleton.2 rfl) (fun y hy _ => List.mem_singleton.1 hy)
    exact Option.some.inj (had.symm.trans this)
  obtain rfl := (hold coin).1 minted.held.1
  have hg : chg = chgM := by
    have hv := minted.fee_value
    change 100 = chg.amount.val + 7 at hv
    have ha : chg.amount = 93 := Fin.ext (show chg.amount.val = 93 by omega)
    obtain ⟨c1, c2, c3, c4⟩ := minted.change
    obtain ⟨a, ad, pk, ff, bl⟩ := chg
    dsimp only at ha c1 c2 c3 c4
    subst ha c1 c2 c3 c4
    rfl
  subst hg
  exact ⟨i', note, memo, minted, .mint rfl rfl had h1 minted, begun, fun x => (same x).trans (hold x), h2⟩

/-- Each would have been accepted; once the first is in a block, the second is closed for ever. -/
example : ∃ o o' h s w, o.act = act100 ∧ o'.act = act103 ∧
    (∀ time : U64, validateTxnsBatch 2 led0 [o.note] time = .ok () ∧ validateTxnsBatch 2 led0 [o'.note] time = .ok ()) ∧
    Busy 2 .debug alice told100 led0 walletA h s w [o, o'] [o] [] ∧
    ∀ (more : List Seen) (s2 : LedgerState) (w2 : Wallet) (time : U64), World 2 .debug alice (h ++ more) s2 w2 →
      validateTxnsBatch 2 s2 [o'.note] time ≠ .ok () := by
  obtain ⟨i, hi, hwal⟩ := issuing1
  have hold : ∀ x, i.wallet.Holds x ↔ x = (feeRec, 0) := by
    rw [hwal]
    exact walletA_holds
  obtain ⟨i1, note, memo, minted, does, hi1, hold1, valid⟩ := mints103 hi (by simpa using coin_only (more := []) (by simp)) hold 1000
    (by decide)
  obtain ⟨i2, note', memo', -, does', hi2, -, valid'⟩ := mints103 hi1
    (by
      refine coin_only (fun e he => ?_)
      simp only [List.mem_cons, List.not_mem_nil, or_false] at he
      rcases he with rfl | rfl
      · exact .inl ⟨_, rfl⟩
      · exact .inr ⟨_, rfl⟩) hold1 500 (by decide)
  rw [hwal] at minted does
  have w1 := issuing_world hi1
  have w2 := issuing_world hi2
  let o : Own := ⟨act100, [(feeRec, 0)], chgM, .mint note, [memo]⟩
  let o' : Own := ⟨act103, [(feeRec, 0)], chgM, .mint note', [memo']⟩
  have b1 : Busy 2 .debug alice told100 led0 walletA (told100 ++ [(feeRec, (0 : U64))].map .spending ++ [.expecting chgM]) led0
      i1.wallet [o] [] [] := Busy.start.act does (by simpa [told100] using w1)
  have b2 : Busy 2 .debug alice told100 led0 walletA seen103 led0 i2.wallet [o, o'] [] [] :=
    b1.act does' (by simpa [told100] using w2)
  obtain ⟨apart, calm⟩ := calm103 (blind := (47 : ZMod p)) (who := bob.pubKey) (time := 5) minted
  obtain ⟨s3, w3, b3⟩ := C103_settles (o := o) worldA b2 apart.prefix (calm.prefix (fun _ h => h))
    List.mem_cons_self (valid 5) (show Room 2 led0 3 from ⟨by decide, by decide⟩) (47 : ZMod p) bob.pubKey
  exact ⟨o, o', _, _, _, rfl, rfl, fun time => ⟨valid time, valid' time⟩, b3, fun more s2 w2 time later =>
    C103_closed (o := o') (o' := o) worldA b3 apart calm (List.mem_cons_of_mem _ List.mem_cons_self) List.mem_cons_self
      (x := (feeRec, 0)) List.mem_cons_self List.mem_cons_self later List.mem_cons_self⟩

end Cap.Examples
