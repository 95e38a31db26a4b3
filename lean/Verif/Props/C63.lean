/-
C63: what an asset issuer mints is accepted and arrives, with the definition it declared.

status: partial
note: C63_declared and C63_kept: the issuer keeps each definition it declared, for the code of its seed and description, unless it declares another asset with the same code. C63_mints_partial: in every such history, with a held native record that covers the fee, mint succeeds for every declared asset, owner and amount below 2^127; its note alone is accepted by the validator at any time and the memo signature verifies. C63_minted: whatever mint returns pays exactly the fee from a held native record and creates one record of the declared asset. C63_scans: scan_txn succeeds for the block of a mint and the issuer goes on with it. C63_arrives: the owner's wallet has that record, C63_settles: the fee record is gone and its change is back, after the block. FALSE: C63_limit_false: amounts from 2^127 on are never accepted; C63_twice_false: two mints in a row with the same fee exclude each other. The memo must be encryptable (C48); completeness of the SNARK is assumed.
-/
import Verif.SpecIssuer
import Verif.Props.C53
import Verif.Props.C62

namespace Cap

open Spec

variable [E : CapEnv] [S : CapExt] {d : Fin 256} {b : Build} {k : UserKeyPair} {h : List Seen} {s : LedgerState}
  {defs : List Declared} {i i' i'' : Issuer} {rng rng' : MintRand} {ad : AssetDefinition} {code code' : AssetCode}
  {amount amount' fee fee' : Amount} {owner owner' : UserPubKey} {note note' : MintNote} {sig sig' : E.Sig}
  {memo memo' : E.AeadCt}

omit E S in
theorem mapGet_filter {α β : Type} [DecidableEq α] {c c' : α} (hc : c' ≠ c) :
    ∀ l : List (α × β), mapGet c' (l.filter (fun e => e.1 ≠ c)) = mapGet c' l
  | [] => rfl
  | (a, v) :: l => by
    by_cases ha : a = c
    · subst ha
      rw [List.filter_cons_of_neg (by simp), mapGet_filter hc l, mapGet, if_neg (fun e => hc e.symm)]
    · rw [List.filter_cons_of_pos (by simpa using ha), mapGet, mapGet, mapGet_filter hc l]

omit E S in
theorem mapGet_set {α β : Type} [DecidableEq α] (c c' : α) (v : β) (l : List (α × β)) :
    mapGet c' (mapSet c v l) = if c' = c then some v else mapGet c' l := by
  unfold mapSet
  rw [mapGet]
  by_cases h : c' = c
  · rw [if_pos h.symm, if_pos h]
  · rw [if_neg (fun e => h e.symm), if_neg h, mapGet_filter h]

theorem newAssetDefinition_ok {seed : F} {desc : List Byte} {policy : AssetPolicy} :
    i.newAssetDefinition seed desc policy = .ok (i', code) ↔
      newDomestic seed desc ≠ nativeCode ∧ newDomestic seed desc ≠ dummyCode ∧ code = newDomestic seed desc ∧
      i' = { i with defined := mapSet code (⟨code, policy⟩, seed, desc) i.defined } := by
  unfold Issuer.newAssetDefinition AssetDefinition.new
  constructor
  · intro ok
    rw [bind_ok_iff] at ok
    obtain ⟨ad, h1, h2⟩ := ok
    have h1 := Wallet.unwrap_ok h1
    split at h1
    · cases h1
    · next hn =>
      cases h1
      cases h2
      exact ⟨fun e => hn (.inl e), fun e => hn (.inr e), rfl, rfl⟩
  · rintro ⟨h1, h2, rfl, rfl⟩
    dsimp only
    rw [if_neg (not_or.2 ⟨h1, h2⟩)]
    rfl

/-- **Declaring an asset.**  The code is the one of the seed and the description; from then on the issuer has the definition
with the chosen policy, and what it had for other codes. -/
theorem C63_declared {seed : F} {desc : List Byte} {policy : AssetPolicy}
    (ok : i.newAssetDefinition seed desc policy = .ok (i', code)) :
    code = newDomestic seed desc ∧ i'.assetDefinition code = some ⟨code, policy⟩ ∧
      ∀ c ≠ code, i'.assetDefinition c = i.assetDefinition c := by
  obtain ⟨-, -, rfl, rfl⟩ := newAssetDefinition_ok.1 ok
  refine ⟨rfl, ?_, fun c hc => ?_⟩
  · simp [Issuer.assetDefinition, mapGet_set]
  · simp [Issuer.assetDefinition, mapGet_set, hc]

theorem issuing_world (world : Issuing d b k h s defs i) : World d b k h s i.wallet := by
  induction world with
  | start ok =>
    unfold Issuer.new at ok
    rw [bind_ok_iff] at ok
    obtain ⟨_, _, ok⟩ := ok
    cases ok
    exact .start
  | declare before ok ih =>
    obtain ⟨-, -, rfl, rfl⟩ := newAssetDefinition_ok.1 ok
    exact ih
  | wallet before world ih => exact world

theorem issuing_key (world : Issuing d b k h s defs i) : ∃ vk, mintPreprocess d = .ok (i.proving_key, vk) := by
  induction world with
  | start ok =>
    unfold Issuer.new at ok
    rw [bind_ok_iff] at ok
    obtain ⟨⟨pk, vk⟩, h1, ok⟩ := ok
    cases ok
    exact ⟨vk, Wallet.unwrap_ok h1⟩
  | declare before ok ih =>
    obtain ⟨-, -, rfl, rfl⟩ := newAssetDefinition_ok.1 ok
    exact ih
  | wallet before world ih => exact ih

/-- what the issuer has for a code is what was declared last for it -/
theorem issuing_defined (world : Issuing d b k h s defs i) (c : AssetCode) :
    mapGet c i.defined = (defs.reverse.find? (fun x => x.code = c)).map (fun x => (x.definition, x.seed, x.desc)) := by
  induction world with
  | start ok =>
    unfold Issuer.new at ok
    rw [bind_ok_iff] at ok
    obtain ⟨⟨pk, vk⟩, h1, ok⟩ := ok
    cases ok
    rfl
  | @declare _ _ _ _ seed desc policy _ _ before ok ih =>
    obtain ⟨-, -, rfl, rfl⟩ := newAssetDefinition_ok.1 ok
    rw [List.reverse_append, List.reverse_singleton, List.singleton_append, List.find?_cons]
    dsimp only
    rw [mapGet_set]
    by_cases hc : c = newDomestic seed desc
    · rw [if_pos hc, show decide ((⟨seed, desc, policy⟩ : Declared).code = c) = true from decide_eq_true hc.symm]
      subst hc
      rfl
    · rw [if_neg hc, ih, show decide ((⟨seed, desc, policy⟩ : Declared).code = c) = false from
        decide_eq_false (fun e => hc e.symm)]
  | wallet before world ih => exact ih

/-- **The definitions are kept**, whatever else happens, unless the issuer declares another asset with the same code. -/
theorem C63_kept (world : Issuing d b k h s defs i) {x : Declared} (mem : x ∈ defs)
    (no_twin : ∀ y ∈ defs, y.code = x.code → y = x) : i.assetDefinition x.code = some x.definition := by
  unfold Issuer.assetDefinition
  rw [issuing_defined world]
  cases hf : defs.reverse.find? (fun y => decide (y.code = x.code)) with
  | none =>
    rw [List.find?_eq_none] at hf
    exact absurd (hf x (List.mem_reverse.2 mem)) (by simp)
  | some y =>
    have h1 := List.mem_reverse.1 (List.mem_of_find?_eq_some hf)
    have h2 : y.code = x.code := by simpa using List.find?_some hf
    rw [no_twin y h1 h2]
    rfl

/-- Everything a successful `mint` went through. -/
structure Issuer.Minting (i : Issuer) (d : Fin 256) (s : LedgerState) (rng : MintRand) (fee : Amount) (code : AssetCode)
    (amount : Amount) (owner : UserPubKey) (i' : Issuer) (note : MintNote) (sig : E.Sig) (memo : E.AeadCt)
    (f : RecordOpening × U64) (ad : AssetDefinition) (seed : F) (desc : List Byte) (info : TxnFeeInfo) (chg : RecordOpening)
    (sk : Fr) : Prop where
  fee_find : i.wallet.findRecordForFee fee = .ok f
  defined : mapGet code i.defined = some (ad, seed, desc)
  memo_ok : ReceiverMemo.fromRo rng.memo ⟨amount, ad, owner, .unfrozen, rng.blind⟩ [] = .ok memo
  fee_ok : TxnFeeInfo.new rng.chg_blind ⟨f.1, lookup d.val s f.2, i.wallet.keypair⟩ fee = .ok (info, chg)
  gen : MintNote.generate rng.note ⟨amount, ad, owner, .unfrozen, rng.blind⟩ seed desc info i.proving_key = .ok (note, sk)
  sig_ok : signReceiverMemos sk [memo] = .ok sig
  issuer : i' = { i with wallet :=
    { (i.wallet.markUnconfirmedSpent (i.wallet.keypair.nullify 0 f.2 f.1.commitment) f.1 f.2) with
      changes := setInsert chg i.wallet.changes } }

theorem Issuer.mint_ok (ok : i.mint d s rng fee code amount owner = .ok (i', note, sig, memo)) :
    ∃ f ad seed desc info chg sk, i.Minting d s rng fee code amount owner i' note sig memo f ad seed desc info chg sk := by
  unfold Issuer.mint at ok
  simp only [bind_ok_iff] at ok
  obtain ⟨f, h1, acc, h2, h3⟩ := ok
  obtain rfl := Wallet.lookupFromTree_ok h2
  split at h3
  · cases h3
  · next ad seed desc hd =>
    simp only [bind_ok_iff] at h3
    obtain ⟨m, h4, ⟨info, chg⟩, h5, ⟨n, sk⟩, h6, sg, h7, h8⟩ := h3
    cases h8
    exact ⟨f, ad, seed, desc, info, chg, sk, h1, hd, h4, Wallet.unwrap_ok h5, h6, h7, rfl⟩

/-- **What a mint does.**  Whatever `mint` returns pays the fee with a native record that the wallet holds, returns its
change, and creates a record of the declared asset; the issuer and its wallet go on. -/
theorem C63_minted (world : Issuing d b k h s defs i)
    (ok : i.mint d s rng fee code amount owner = .ok (i', note, sig, memo)) :
    ∃ coin ad chg, i.assetDefinition code = some ad ∧ Minted k i.wallet rng ad amount owner fee coin chg note memo ∧
      TransactionNote.verifyReceiverMemosSignature (.mint note) [memo] sig = .ok () ∧
      Issuing d b k (h ++ [.spending coin, .expecting chg]) s defs i' ∧ ∀ x, i'.wallet.Holds x ↔ i.wallet.Holds x := by
  obtain ⟨f, ad, seed, desc, info, chg, sk, sp⟩ := Issuer.mint_ok ok
  obtain ⟨c1, c2, c3, c4, c5, c6, c7, c8⟩ := C23_change _ _ _ _ _ sp.fee_ok
  have hw := issuing_world world
  have mg := MintNote.generate_ok.1 sp.gen
  obtain ⟨f1, f2, f3, f4, f5, f6, f7⟩ := C18_fields sp.gen
  obtain ⟨shelf, hs1, hs2, -⟩ := Wallet.findRecordForFee_ok sp.fee_find
  have hf : i.wallet.Holds f := (((shelf_holds hw nativeCode hs1).2 f).1 hs2).1
  have hnat : f.1.asset_def = AssetDefinition.native := by
    have := mg.checks.fee_ok.fee_native
    rwa [c7] at this
  have hchg : chg.pub_key = k.pubKey := by
    rw [c2]
    exact (C59_sound hw f hf).2.1
  have hnull : i.wallet.keypair.nullify 0 f.2 f.1.commitment = i.wallet.nullify f := by
    unfold Wallet.nullify
    rw [hnat]
    rfl
  refine ⟨f, ad, chg, ?_, ⟨⟨hf, hnat⟩, c1.symm, by rw [f5, c8], ⟨c3, hchg, c4, c5⟩, ?_, by rw [f4, c6],
    ⟨f3, f1, f2⟩, sp.memo_ok⟩, ?_, ?_, ?_⟩
  · unfold Issuer.assetDefinition
    rw [sp.defined]
    rfl
  · have := congrArg MintPublicInput.input_nullifier mg.pub
    rw [show note.input_nullifier = _ from this]
    unfold mintPubOf
    rw [c7, ← (worldOk hw).key]
    rfl
  · obtain ⟨sig', q1, q2⟩ := C36_sign_verify sk (.mint note) [memo]
      (by show note.aux_info.txn_memo_ver_key = _; rw [mg.ver_key, mg.sign_key]) (by simp)
    rw [sp.sig_ok] at q1
    cases q1
    exact q2
  · rw [sp.issuer, hnull]
    have h1 := World.expecting (hw.spending hf) hchg c4
    rw [List.append_assoc] at h1
    exact .wallet world h1
  · intro y
    rw [sp.issuer]
    rfl

theorem fee_found {w : Wallet} (world : World d b k h s w)
    (fee_coin : ∃ x, w.Holds x ∧ x.1.asset_def.code = nativeCode ∧ fee ≤ x.1.amount) :
    ∃ f, w.findRecordForFee fee = .ok f ∧ w.Holds f ∧ f.1.asset_def.code = nativeCode ∧ fee ≤ f.1.amount ∧
      Wallet.lookupFromTree d.val s f.2 = .ok (lookup d.val s f.2) := by
  obtain ⟨y, hy1, hy2, hy3⟩ := fee_coin
  obtain ⟨-, memn⟩ := (worldOk world).ok.get nativeCode
  obtain ⟨ln, hln⟩ : ∃ l, mapGet nativeCode w.unspent = some l := by
    cases hg : mapGet nativeCode w.unspent with
    | some l => exact ⟨l, rfl⟩
    | none =>
      have := (memn y).2 ⟨hy1, hy2⟩
      rw [hg] at this
      cases this
  rw [hln, Option.getD_some] at memn
  obtain ⟨f, hf⟩ := Wallet.findRecordForFee_intro hln ((memn y).2 ⟨hy1, hy2⟩) hy3
  obtain ⟨l', hl', hf1, hf2⟩ := Wallet.findRecordForFee_ok hf
  rw [hln] at hl'
  cases hl'
  obtain ⟨g1, g2⟩ := (memn f).1 hf1
  refine ⟨f, hf, g1, g2, hf2, ?_⟩
  unfold Wallet.lookupFromTree
  rw [if_pos (List.getElem?_eq_some_iff.1 (C59_sound world f g1).2.2.2).1]
  rfl

/-- **Mints are accepted.**  An issuer that has declared an asset, with a record that can pay the fee, can mint any amount
below 2^127 for anyone; the note alone is accepted by the validator, and the memo signature verifies. -/
theorem C63_mints_partial (complete : SnarkComplete) (batch : SnarkBatch) (world : Issuing d b k h s defs i)
    (apart : Apart k h)
    (genuine : ∀ x, i.wallet.Holds x → x.1.asset_def.code = nativeCode → x.1.asset_def = AssetDefinition.native)
    (fee_coin : ∃ x, i.wallet.Holds x ∧ x.1.asset_def.code = nativeCode ∧ fee ≤ x.1.amount)
    {x : Declared} (declared : x ∈ defs) (no_twin : ∀ y ∈ defs, y.code = x.code → y = x)
    (small : amount.val < 2 ^ 127)
    (encrypts : ∃ c, ReceiverMemo.fromRo rng.memo ⟨amount, x.definition, owner, .unfrozen, rng.blind⟩ [] = .ok c) :
    ∃ i' note sig memo, i.mint d s rng fee x.code amount owner = .ok (i', note, sig, memo) ∧
      note.mint_amount = amount ∧ note.mint_asset_def = x.definition ∧ note.aux_info.fee = fee ∧
      TransactionNote.verifyReceiverMemosSignature (.mint note) [memo] sig = .ok () ∧
      ∀ time : U64, validateTxnsBatch d s [.mint note] time = .ok () := by
  have hw := issuing_world world
  obtain ⟨vk, keys⟩ := issuing_key world
  obtain ⟨f, hfr, hfh, hfn, hff, hflook⟩ := fee_found hw fee_coin
  obtain ⟨-, hfk, hfu, hfl⟩ := C59_sound hw f hfh
  have hdef : mapGet x.code i.defined = some (x.definition, x.seed, x.desc) := by
    have hk := C63_kept world declared no_twin
    unfold Issuer.assetDefinition at hk
    rw [issuing_defined world] at hk ⊢
    cases hf : defs.reverse.find? (fun y => decide (y.code = x.code)) with
    | none => rw [hf] at hk; cases hk
    | some y =>
      have h1 := List.mem_reverse.1 (List.mem_of_find?_eq_some hf)
      have h2 : y.code = x.code := by simpa using List.find?_some hf
      rw [no_twin y h1 h2]
      rfl
  obtain ⟨memo, hmemo⟩ := encrypts
  set fi : FeeInput := ⟨f.1, lookup d.val s f.2, i.wallet.keypair⟩ with hfi
  have pays : PaysFee d.val (treeRoot d.val s.leaves) fi fee :=
    ⟨treePath_length _ _ _, genuine f hfh hfn, hfu, by rw [hfi, (worldOk hw).key]; exact hfk,
      ⟨rfl, treePath_root (worldOk hw).room hfl⟩, hff⟩
  obtain ⟨info, chg, n, sk, new, gen, hver, p1, p2, p3, p4, p5, p6, p7⟩ := C53_partial complete keys pays
    (seed := x.seed) (desc := x.desc) (ro := ⟨amount, x.definition, owner, .unfrozen, rng.blind⟩) ⟨rfl, rfl⟩ small
    rng.chg_blind rng.note
  have mg := MintNote.generate_ok.1 gen
  obtain ⟨sig, q1, q2⟩ := C36_sign_verify sk (.mint n) [memo]
    (by show n.aux_info.txn_memo_ver_key = _; rw [mg.ver_key, mg.sign_key]) (by simp)
  refine ⟨{ i with wallet :=
      { (i.wallet.markUnconfirmedSpent (i.wallet.keypair.nullify 0 f.2 f.1.commitment) f.1 f.2) with
        changes := setInsert chg i.wallet.changes } }, n, sig, memo, ?_, p3, p4, p6, q2, fun time => ?_⟩
  · unfold Issuer.mint
    simp only [bind_ok_iff]
    refine ⟨_, hfr, _, hflook, ?_⟩
    rw [hdef]
    simp only [bind_ok_iff]
    exact ⟨_, hmemo, (info, chg), congrArg unwrapRes new, _, gen, _, q1, rfl⟩
  · have hv := MintNote.verify_ok.1 hver
    exact validate_made complete batch (d := d) (s := s) (ts := [⟨.mint n, _, _⟩]) (time := time) (by simp)
      (by
        intro t ht
        rw [List.mem_singleton] at ht
        rw [ht]
        exact Made.mint keys gen)
      (by
        intro t ht'
        rw [List.mem_singleton] at ht'
        rw [ht']
        show n.mint_amount.val < 2 ^ 127
        rw [p3]
        exact small)
      (by
        intro t ht
        rw [List.mem_singleton] at ht
        rw [ht]
        show n.aux_info.merkle_root ∈ _
        rw [← hv.1]
        exact (worldOk hw).root)
      (by
        rw [List.flatMap_cons, List.flatMap_nil, List.append_nil]
        exact List.nodup_singleton _)
      (by
        intro t ht
        rw [List.mem_singleton] at ht
        rw [ht]
        intro y hy
        obtain rfl := List.mem_singleton.1 hy
        rw [p1, show nullifierOf fi.toTransferInput = ownNullifier k f by rw [← (worldOk hw).key]; rfl]
        exact C59_fresh hw apart f hfh)

/-- **The minted record arrives** at its owner, at the second position of the mint. -/
theorem C63_arrives {w0 : Wallet} {coin : RecordOpening × U64} {chg : RecordOpening} {k' : UserKeyPair}
    (minted : Minted k w0 rng ad amount k'.pubKey fee coin chg note memo)
    {d' : Fin 256} {b' : Build} {h' : List Seen} {s' : LedgerState} {w' : Wallet}
    (world : World d' b' k' h' s' w') {pos : ℕ} (there : At h' (.mint note) [memo] pos) :
    ∃ ro uid, ro.amount = amount ∧ ro.asset_def = ad ∧ ro.pub_key = k'.pubKey ∧ (uid : U64).val = pos + 1 ∧
      (w'.Holds (ro, uid) ∨ ownNullifier k' (ro, uid) ∈ s'.nullifiers) := by
  have hin := there.inside
  have hsz := (worldOk world).size
  have hsm := (worldOk world).small
  have hlen : (TransactionNote.mint note).outputCommitments.length = 2 := rfl
  refine ⟨⟨amount, ad, k'.pubKey, .unfrozen, rng.blind⟩, ⟨pos + 1, by omega⟩, rfl, rfl, rfl, rfl,
    C59_memo world there (j := 0) (rc := note.mint_comm) rfl rfl ?_ rfl rfl⟩
  rw [minted.minted.1]
  exact C35_round_trip _ _ _ _ _ rfl minted.memo

/-- **The mint is settled**: the record that paid the fee is gone, and its change has come back. -/
theorem C63_settles {w0 w : Wallet} {coin : RecordOpening × U64} {chg : RecordOpening} {after : List Seen}
    (minted : Minted k w0 rng ad amount owner fee coin chg note memo)
    (world : World d b k (h ++ .spending coin :: .expecting chg :: after) s w)
    (apart : Apart k (h ++ .spending coin :: .expecting chg :: after))
    (no_twin : ∀ chg', .expecting chg' ∈ h ++ .spending coin :: .expecting chg :: after →
      chg'.commitment = chg.commitment → chg' = chg)
    {txns : List (TransactionNote × List E.AeadCt)} {blind : F} {who : UserPubKey} {time : U64}
    (later : .block txns blind who time ∈ after) (there : (.mint note, [memo]) ∈ txns) :
    ¬ w.Holds coin ∧ ∃ uid, w.Holds (chg, uid) ∨ ownNullifier k (chg, uid) ∈ s.nullifiers := by
  refine ⟨?_, ?_⟩
  · obtain ⟨l1, l2, rfl⟩ := List.append_of_mem later
    have e : h ++ .spending coin :: .expecting chg :: (l1 ++ .block txns blind who time :: l2) =
        (h ++ .spending coin :: .expecting chg :: l1) ++ .block txns blind who time :: l2 := by simp
    rw [e] at world apart
    refine C59_gone world apart coin there ?_
    show _ ∈ [note.input_nullifier]
    rw [minted.nullifier]
    exact List.mem_singleton.2 rfl
  · have e : h ++ .spending coin :: .expecting chg :: after = (h ++ [.spending coin]) ++ .expecting chg :: after := by simp
    rw [e] at world no_twin
    obtain ⟨t, m, pos, uid, -, -, -, h4⟩ := C59_change world rfl no_twin later there
      (by show some note.chg_comm = _; rw [minted.first])
    exact ⟨uid, h4⟩

/-- **Scanning a mint.**  When a block with one transaction has gone into the ledger, and every output but the first has a
memo, `scan_txn` succeeds and the issuer goes on with the block in its history: it keeps its definitions and its key, and its
wallet is one that has scanned the block. -/
theorem C63_scans (world : Issuing d b k h s defs i) {t : TransactionNote} {memos : List E.AeadCt} {blind : F}
    {who : UserPubKey} {time : U64} {s' : LedgerState} (valid : validateTxnsBatch d s [t] time = .ok ())
    (inserted : s.insertBlock d.val ⟨[t], blind, who⟩ = .ok s') {uid : U64} (offset : uid.val = s.leaves.length)
    (all : t.outputCommitments.length = memos.length + 1) :
    ∃ i', i.scanTxn b t memos uid = .ok i' ∧ Issuing d b k (h ++ [.block [(t, memos)] blind who time]) s' defs i' ∧
      i'.proving_key = i.proving_key ∧ ∀ c, i'.assetDefinition c = i.assetDefinition c := by
  obtain ⟨w', recv, h1, h2⟩ := C59_scans (issuing_world world) (txns := [(t, memos)]) valid inserted offset (by simpa using all)
  have h3 : Wallet.scanTxns b i.wallet [(t, memos)] uid = .ok (w', recv) := by
    unfold Wallet.scanBlock at h1
    rw [if_neg (by simp)] at h1
    exact h1
  unfold Wallet.scanTxns at h3
  obtain ⟨⟨w1, recv1⟩, h4, h5⟩ := bind_ok_iff.1 h3
  obtain ⟨_, _, h6⟩ := bind_ok_iff.1 h5
  obtain ⟨⟨w2, recv2⟩, h7, h8⟩ := bind_ok_iff.1 h6
  unfold Wallet.scanTxns at h7
  cases h7
  cases h8
  refine ⟨{ i with wallet := w' }, ?_, .wallet world h2, rfl, fun _ => rfl⟩
  unfold Issuer.scanTxn
  rw [h4]
  rfl

/-- **An issuer cannot mint 2^127 units or more at once**: `mint` fails, or its note is refused by every validator. -/
theorem C63_limit_false (sound : SnarkSound) (batch : SnarkBatch) (world : Issuing d b k h s defs i)
    (large : 2 ^ 127 ≤ amount.val) (rng : MintRand) (fee : Amount) (code : AssetCode) (owner : UserPubKey) :
    (∃ e, i.mint d s rng fee code amount owner = .error e) ∨
      ∃ i' note sig memo, i.mint d s rng fee code amount owner = .ok (i', note, sig, memo) ∧
        ∀ (d' : Fin 256) (s' : LedgerState) (txns : List TransactionNote) (time : U64), .mint note ∈ txns →
          validateTxnsBatch d' s' txns time ≠ .ok () := by
  cases ok : i.mint d s rng fee code amount owner with
  | error e => exact .inl ⟨e, rfl⟩
  | ok r =>
  obtain ⟨i', note, sig, memo⟩ := r
  refine .inr ⟨i', note, sig, memo, rfl, fun d' s' txns time mem hv => ?_⟩
  obtain ⟨coin, ad, chg, -, minted, -⟩ := C63_minted world ok
  obtain ⟨-, -, -, hc⟩ := (C51_any batch (List.ne_nil_of_mem mem)).1 hv
  obtain ⟨key, hk, x, hx, hs⟩ := hc _ mem
  simp only [keyForNote, bind_ok_iff] at hk
  obtain ⟨⟨pk, vk⟩, hk, e⟩ := hk
  cases e
  simp only [TransactionNote.publicScalars, bind_ok_iff] at hx
  obtain ⟨a, ha, e⟩ := hx
  cases e
  obtain ⟨-, rfl⟩ := MintNote.checkInstance_ok.1 ha
  obtain ⟨w, -, hsat⟩ := mint_proof_opened sound (Wallet.unwrap_ok hk) hs
  have hr := hsat.mint_range
  rw [hsat.mint_amount, show note.pub.toV.mint_amount = Amount.toF note.mint_amount from rfl, minted.minted.2.1] at hr
  unfold InRange AMOUNT_LEN at hr
  rw [Amount.toF_val] at hr
  exact absurd large (not_le.2 hr)

/-- **An issuer cannot mint twice in a row with the same fee**: both notes spend the same record for the fee. -/
theorem C63_twice_false (world : Issuing d b k h s defs i)
    (first : i.mint d s rng fee code amount owner = .ok (i', note, sig, memo)) {s2 : LedgerState}
    (second : i'.mint d s2 rng' fee code' amount' owner' = .ok (i'', note', sig', memo')) :
    note'.input_nullifier = note.input_nullifier ∧
    (∀ (d' : Fin 256) (s' : LedgerState) (time : U64) (l1 l2 l3 : List TransactionNote),
      validateTxnsBatch d' s' (l1 ++ .mint note :: l2 ++ .mint note' :: l3) time ≠ .ok ()) ∧
    ∀ (d' : Fin 256) (s1 s1' : LedgerState) (block : MockBlock) (txns : List TransactionNote) (time : U64),
      .mint note ∈ block.txns → s1.insertBlock d'.val block = .ok s1' → .mint note' ∈ txns →
      validateTxnsBatch d' s1' txns time ≠ .ok () := by
  obtain ⟨f, ad, seed, desc, info, chg, sk, sp⟩ := Issuer.mint_ok first
  obtain ⟨f', ad', seed', desc', info', chg', sk', sp'⟩ := Issuer.mint_ok second
  have hw := issuing_world world
  have hun : i'.wallet.unspent = i.wallet.unspent := by
    rw [sp.issuer]
    rfl
  have hkey : i'.wallet.keypair = i.wallet.keypair := by
    rw [sp.issuer]
    rfl
  have hff : f' = f := by
    have h1 := sp'.fee_find
    have h2 := sp.fee_find
    unfold Wallet.findRecordForFee at h1 h2
    rw [hun, h2] at h1
    exact (Except.ok.inj h1).symm
  have hz : note'.input_nullifier = note.input_nullifier := by
    obtain ⟨-, -, -, -, -, -, c7, -⟩ := C23_change _ _ _ _ _ sp.fee_ok
    obtain ⟨-, -, -, -, -, -, c7', -⟩ := C23_change _ _ _ _ _ sp'.fee_ok
    have h1 := congrArg MintPublicInput.input_nullifier (MintNote.generate_ok.1 sp.gen).pub
    have h2 := congrArg MintPublicInput.input_nullifier (MintNote.generate_ok.1 sp'.gen).pub
    rw [show note.input_nullifier = _ from h1, show note'.input_nullifier = _ from h2]
    unfold mintPubOf
    rw [c7, c7', hff, hkey]
    rfl
  refine ⟨hz, fun d' s' time l1 l2 l3 hv => ?_, fun d' s1 s1' block txns time hm hi ht hv => ?_⟩
  · obtain ⟨-, hnd, -⟩ := validateTxnsBatch_ok hv
    rw [List.flatMap_append, List.flatMap_append, List.flatMap_cons, List.flatMap_cons] at hnd
    have := (List.nodup_append.1 hnd).2.2
    exact this _ (List.mem_append_right _ (List.mem_append_left _ (List.mem_singleton.2 rfl))) _
      (List.mem_append_left _ (List.mem_singleton.2 rfl)) hz.symm
  · obtain ⟨-, -, hf, -⟩ := validateTxnsBatch_ok hv
    obtain ⟨fee, -, -, -, hn, -⟩ := LedgerState.insertBlock_ok hi
    exact hf note'.input_nullifier (List.mem_flatMap.2 ⟨_, ht, List.mem_singleton.2 rfl⟩)
      ((hn _).2 (.inl (List.mem_flatMap.2 ⟨_, hm, by rw [hz]; exact List.mem_singleton.2 rfl⟩)))

end Cap

namespace Cap.Examples

open Toy Spec

/-! Alice, who has a native coin worth 100, issues the asset of `ToyNotes`, and mints 1000 of it for Bob, with a fee of 7. -/

def mintRand : MintRand := ⟨(61 : ZMod p), 4, (62 : ZMod p), rng⟩

/-- what Alice declared -/
def declared1 : Declared := ⟨seed, desc, policy⟩

theorem issuing1 : ∃ i, Issuing 2 .debug alice (seen0 ++ [.told feeRec 0]) led0 [declared1] i ∧ i.wallet = walletA := by
  obtain ⟨i, hi⟩ : ∃ i, Issuer.new alice 2 = .ok i := ⟨_, rfl⟩
  have h2 := Issuing.declare (.start hi) (b := .debug) (policy := policy) (newAssetDefinition_ok.2
    ⟨asset_code.1, asset_code.2, rfl, rfl⟩)
  exact ⟨_, .wallet h2 worldA, rfl⟩

/-- Alice can mint any amount below the limit, from any wallet with this record. -/
theorem aliceMints {h : List Seen} {i : Issuer} (world : Issuing 2 .debug alice h led0 [declared1] i) (apart : Apart alice h)
    (hold : ∀ x, i.wallet.Holds x ↔ x = (feeRec, 0)) (a : Amount) (ha : a.val < 2 ^ 127) :
    ∃ i' note sig memo, i.mint 2 led0 mintRand 7 declared1.code a bob.pubKey = .ok (i', note, sig, memo) ∧
      note.mint_amount = a ∧ note.mint_asset_def = asset ∧ note.aux_info.fee = 7 ∧
      TransactionNote.verifyReceiverMemosSignature (.mint note) [memo] sig = .ok () ∧
      ∀ time : U64, validateTxnsBatch 2 led0 [.mint note] time = .ok () := by
  refine C63_mints_partial Toy.complete Toy.batch world apart ?_ ⟨_, (hold _).2 rfl, rfl, by decide⟩ (x := declared1)
    (List.mem_singleton.2 rfl) ?_ ha ⟨_, rfl⟩
  · intro x hx _
    rw [(hold x).1 hx]
    rfl
  · intro y hy _
    exact List.mem_singleton.1 hy

/-- The mint is accepted; a second one is made too, and they exclude each other. -/
example : ∃ i i' note sig memo i'' note' sig' memo', Issuing 2 .debug alice (seen0 ++ [.told feeRec 0]) led0 [declared1] i ∧
    i.mint 2 led0 mintRand 7 declared1.code 1000 bob.pubKey = .ok (i', note, sig, memo) ∧
    i'.mint 2 led0 mintRand 7 declared1.code 500 bob.pubKey = .ok (i'', note', sig', memo') ∧
    validateTxnsBatch 2 led0 [.mint note] 5 = .ok () ∧ validateTxnsBatch 2 led0 [.mint note'] 5 = .ok () ∧
    validateTxnsBatch 2 led0 [.mint note, .mint note'] 5 ≠ .ok () := by
  obtain ⟨i, hi, hwal⟩ := issuing1
  have hold : ∀ x, i.wallet.Holds x ↔ x = (feeRec, 0) := by
    rw [hwal]
    exact walletA_holds
  obtain ⟨i', note, sig, memo, h1, -, -, -, -, h2⟩ := aliceMints hi (by simpa using coin_only (more := []) (by simp)) hold 1000
    (by decide)
  obtain ⟨coin, ad, chg, -, -, -, h3, h4⟩ := C63_minted hi h1
  obtain ⟨i'', note', sig', memo', h5, -, -, -, -, h6⟩ := aliceMints h3
    (by
      refine coin_only (fun e he => ?_)
      simp only [List.mem_cons, List.not_mem_nil, or_false] at he
      rcases he with rfl | rfl
      · exact .inl ⟨_, rfl⟩
      · exact .inr ⟨_, rfl⟩)
    (fun x => (h4 x).trans (hold x)) 500 (by decide)
  exact ⟨i, i', note, sig, memo, i'', note', sig', memo', hi, h1, h5, h2 5, h6 5,
    (C63_twice_false hi h1 h5).2.1 2 led0 5 [] [] []⟩

/-- the amount that cannot be minted at once -/
example : SnarkSound ∧ SnarkBatch ∧ 2 ^ 127 ≤ (⟨2 ^ 127, by norm_num⟩ : Amount).val ∧
    ∃ i, Issuing 2 .debug alice (seen0 ++ [.told feeRec 0]) led0 [declared1] i :=
  ⟨Toy.sound, Toy.batch, le_refl _, issuing1.imp fun _ h => h.1⟩

/-- the change of the fee, and what is minted -/
def chgM : RecordOpening := ⟨93, AssetDefinition.native, alice.pubKey, .unfrozen, (62 : ZMod p)⟩
def bobs1000 : RecordOpening := ⟨1000, asset, bob.pubKey, .unfrozen, (61 : ZMod p)⟩

theorem bobs1000_alice : (match ReceiverMemo.fromRo 4 bobs1000 [] with
    | .ok c => isOk (ReceiverMemo.decrypt c alice bobs1000.commitment [])
    | .error _ => true) = false := by decide +kernel
theorem chgM_nullifiers : (([(feeRec, (0 : U64)), (chgM, 2)] :
    List (RecordOpening × U64)).map (ownNullifier alice)).Nodup := by decide +kernel

/-- what the mint is -/
theorem firstMint : ∃ note memo w', Minted alice walletA mintRand asset 1000 bob.pubKey 7 (feeRec, 0) chgM note memo ∧
    World 2 .debug alice (seen0 ++ [.told feeRec 0] ++ [.spending (feeRec, 0), .expecting chgM]) led0 w' ∧
    validateTxnsBatch 2 led0 [.mint note] 5 = .ok () := by
  obtain ⟨i, hi, hwal⟩ := issuing1
  have hold : ∀ x, i.wallet.Holds x ↔ x = (feeRec, 0) := by
    rw [hwal]
    exact walletA_holds
  obtain ⟨i', note, sig, memo, h1, -, had, -, -, h2⟩ := aliceMints hi (by simpa using coin_only (more := []) (by simp)) hold
    1000 (by decide)
  obtain ⟨coin, ad, chg, -, minted, -, hw, -⟩ := C63_minted hi h1
  have hw := issuing_world hw
  obtain rfl := (hold coin).1 minted.held.1
  obtain rfl : ad = asset := by rw [← minted.minted.2.2, had]
  have hg : chg = chgM := by
    have hv := minted.fee_value
    change 100 = chg.amount.val + 7 at hv
    have ha : chg.amount = 93 := Fin.ext (show chg.amount.val = 93 by omega)
    obtain ⟨c1, c2, c3, c4⟩ := minted.change
    obtain ⟨a, ad, pk, ff, bl⟩ := chg
    dsimp only at ha c1 c2 c3 c4
    subst ha c1 c2 c3 c4
    rfl
  subst hg
  rw [hwal] at minted
  exact ⟨note, memo, _, minted, hw, h2 5⟩

/-- After the block with the mint: Bob's wallet has 1000 of the asset at position 3, and in Alice's wallet the coin has been
replaced by the change. -/
example : ∃ note memo s' wB wA, validateTxnsBatch 2 led0 [.mint note] 5 = .ok () ∧
    World 2 .debug bob (seen0 ++ [.block [(.mint note, [memo])] (47 : ZMod p) bob.pubKey 5]) s' wB ∧
    World 2 .debug alice (seen0 ++ [.told feeRec 0] ++
      .spending (feeRec, 0) :: .expecting chgM :: [.block [(.mint note, [memo])] (47 : ZMod p) bob.pubKey 5]) s' wA ∧
    (∃ ro, ro.amount = 1000 ∧ ro.asset_def = asset ∧
      (wB.Holds (ro, 3) ∨ ownNullifier bob (ro, 3) ∈ s'.nullifiers)) ∧
    ¬ wA.Holds (feeRec, 0) ∧ ∃ uid, wA.Holds (chgM, uid) ∨ ownNullifier alice (chgM, uid) ∈ s'.nullifiers := by
  obtain ⟨note, memo, w', minted, hw, valid⟩ := firstMint
  obtain ⟨s', hs'⟩ : ∃ s', led0.insertBlock 2 ⟨[.mint note], (47 : ZMod p), bob.pubKey⟩ = .ok s' := by
    have hins := (C52_partial (d := 2) (b := ⟨[.mint note], (47 : ZMod p), bob.pubKey⟩) (s := led0)
      (show Room 2 led0 0 from ⟨by decide, by decide⟩)).1.2 ⟨by
        show Room 2 led0 ((2 + 0) + 1)
        exact ⟨by decide, by decide⟩, by simp⟩
    exact ⟨_, C52_same.2 (Prod.ext rfl hins)⟩
  have lens : ∀ t ∈ [(TransactionNote.mint note, [memo])], t.1.outputCommitments.length = t.2.length + 1 := by
    intro t ht
    obtain rfl := List.mem_singleton.1 ht
    rfl
  obtain ⟨wB, -, -, hB⟩ := C59_scans (uid := 2) (start_world bob) (txns := [(.mint note, [memo])]) (time := 5) valid hs'
    rfl lens
  obtain ⟨wA, -, -, hA⟩ := C59_scans (uid := 2) hw (txns := [(.mint note, [memo])]) (time := 5) valid hs' rfl lens
  have hA : World 2 .debug alice (seen0 ++ [.told feeRec 0] ++
      .spending (feeRec, 0) :: .expecting chgM :: [.block [(.mint note, [memo])] (47 : ZMod p) bob.pubKey 5]) s' wA := by
    simpa only [List.append_assoc, List.cons_append, List.nil_append] using hA
  have hat : ∀ {t : TransactionNote} {m : List Toy.E.AeadCt} {pos : ℕ},
      At (seen0 ++ [.told feeRec 0] ++
        .spending (feeRec, 0) :: .expecting chgM :: [.block [(.mint note, [memo])] (47 : ZMod p) bob.pubKey 5]) t m pos →
      t = .mint note ∧ m = [memo] ∧ pos = 2 := by
    intro t m pos a
    have e : seen0 ++ [.told feeRec 0] ++
        .spending (feeRec, 0) :: .expecting chgM :: [.block [(.mint note, [memo])] (47 : ZMod p) bob.pubKey 5] =
        (seen0 ++ [.told feeRec 0] ++ [.spending (feeRec, 0), .expecting chgM]) ++
          [.block [(.mint note, [memo])] (47 : ZMod p) bob.pubKey 5] := by simp
    rw [e] at a
    rcases a.cases with a | ⟨txns, blind, who, time, n, h1, h2, rfl⟩
    · exfalso
      obtain ⟨before, txns, blind, who, time, after, -, -, h1, -⟩ := a
      have : Seen.block txns blind who time ∈
        seen0 ++ [.told feeRec 0] ++ [.spending (feeRec, 0), .expecting chgM] := by rw [h1]; simp
      simp [seen0] at this
    · cases h1
      rcases h2.cases with ⟨h3, h4⟩ | ⟨m, -, h3⟩
      · cases h3
        exact ⟨rfl, rfl, by rw [h4]; rfl⟩
      · exact (nomatch h3.mem)
  have expects : ∀ {c : RecordOpening}, .expecting c ∈ seen0 ++ [.told feeRec 0] ++
      .spending (feeRec, 0) :: .expecting chgM :: [.block [(.mint note, [memo])] (47 : ZMod p) bob.pubKey 5] → c = chgM := by
    intro c hc
    rcases List.mem_append.1 hc with hc | hc
    · simp [seen0] at hc
    · rcases List.mem_cons.1 hc with hc | hc
      · cases hc
      · rcases List.mem_cons.1 hc with hc | hc
        · cases hc
          rfl
        · simp at hc
  have hr : ∀ x, Received alice (seen0 ++ [.told feeRec 0] ++
      .spending (feeRec, 0) :: .expecting chgM :: [.block [(.mint note, [memo])] (47 : ZMod p) bob.pubKey 5]) x →
      x ∈ [(feeRec, (0 : U64)), (chgM, 2)] := by
    intro x hx
    cases hx with
    | told mem =>
      simp only [seen0, List.cons_append, List.nil_append, List.mem_cons, List.not_mem_nil, or_false, reduceCtorEq, false_or,
        Seen.told.injEq] at mem
      rw [mem.1, mem.2]
      exact List.mem_cons_self
    | memo a o m op p =>
      rename_i t ms pos j rc c ro uid
      obtain ⟨e1, e2, -⟩ := hat a
      rw [e1] at o
      rw [e2] at m
      have hj : j = 0 := by
        have := (List.getElem?_eq_some_iff.1 m).1
        simp only [List.length_cons, List.length_nil] at this
        omega
      subst hj
      cases m
      have g1' : (TransactionNote.mint note).outputCommitments[0 + 1]? = some bobs1000.commitment := by
        rw [show bobs1000.commitment = note.mint_comm from minted.minted.1.symm]
        rfl
      rw [g1'] at o
      rw [← Option.some.inj o] at op
      have := bobs1000_alice
      rw [show ReceiverMemo.fromRo 4 bobs1000 [] = _ from minted.memo] at this
      dsimp only at this
      rw [op] at this
      cases this
    | change wt a o p =>
      rename_i t ms pos chg uid
      obtain ⟨-, -, e3⟩ := hat a
      rw [e3] at p
      rw [expects wt, show uid = 2 from Fin.ext p]
      simp
  have apart : Apart alice (seen0 ++ [.told feeRec 0] ++
      .spending (feeRec, 0) :: .expecting chgM :: [.block [(.mint note, [memo])] (47 : ZMod p) bob.pubKey 5]) := by
    refine ⟨fun x y hx hy hn => List.inj_on_of_nodup_map chgM_nullifiers (hr x hx) (hr y hy) hn, fun x hx t m pos a hp => ?_⟩
    exfalso
    have h1 := hr x hx
    have : x.2.val ≤ 2 := by
      simp only [List.mem_cons, List.not_mem_nil, or_false] at h1
      rcases h1 with rfl | rfl <;> decide
    obtain ⟨rfl, -, rfl⟩ := hat a
    have hl : (TransactionNote.mint note).outputCommitments.length = 2 := rfl
    omega
  obtain ⟨g1, g2⟩ := C63_settles minted hA apart (fun c hc _ => expects hc) (List.mem_singleton.2 rfl)
    (List.mem_singleton.2 rfl)
  refine ⟨note, memo, s', wB, wA, valid, hB, hA, ?_, g1, g2⟩
  obtain ⟨ro, uid, q1, q2, -, q4, q5⟩ := C63_arrives minted hB (pos := 2)
    ⟨seen0, [(.mint note, [memo])], _, _, _, [], [], [], rfl, rfl, rfl⟩
  obtain rfl : uid = 3 := Fin.ext q4
  exact ⟨ro, q1, q2, q5⟩

/-- The issuer scans the block of its mint, and still has the definition. -/
example : ∃ i i' note memo s', validateTxnsBatch 2 led0 [.mint note] 5 = .ok () ∧
    Issuer.scanTxn .debug i (.mint note) [memo] 2 = .ok i' ∧
    Issuing 2 .debug alice (seen0 ++ [.told feeRec 0] ++ [.spending (feeRec, 0), .expecting chgM] ++
      [.block [(.mint note, [memo])] (47 : ZMod p) bob.pubKey 5]) s' [declared1] i' ∧
    i'.assetDefinition declared1.code = some declared1.definition := by
  obtain ⟨note, memo, w', minted, hw, valid⟩ := firstMint
  obtain ⟨s', hs'⟩ : ∃ s', led0.insertBlock 2 ⟨[.mint note], (47 : ZMod p), bob.pubKey⟩ = .ok s' := by
    have hins := (C52_partial (d := 2) (b := ⟨[.mint note], (47 : ZMod p), bob.pubKey⟩) (s := led0)
      (show Room 2 led0 0 from ⟨by decide, by decide⟩)).1.2 ⟨by
        show Room 2 led0 ((2 + 0) + 1)
        exact ⟨by decide, by decide⟩, by simp⟩
    exact ⟨_, C52_same.2 (Prod.ext rfl hins)⟩
  obtain ⟨i, hi, -⟩ := issuing1
  obtain ⟨i', h1, h2, -, -⟩ := C63_scans (.wallet hi hw) (memos := [memo]) (uid := 2) valid hs' rfl rfl
  exact ⟨_, i', note, memo, s', valid, h1, h2, C63_kept h2 List.mem_cons_self (fun y hy _ => List.mem_singleton.1 hy)⟩

end Cap.Examples
