/-
C80: what the library's transaction builders make is accepted.

status: proved
note: C80_transfer_native, C80_transfer_asset: a transfer builder that is given as many keys as inputs, balanced amounts, a fee change not above the fee record, at least one output besides the change and a tree with room for inputs and outputs makes records with these amounts and owners, and builds a note that spends exactly these, pays the difference as fee, carries one memo for each output under a valid signature, and is accepted until valid_until (for native notes until 2^20 - 1); C80_mint, C80_freeze: the same for mint and freeze builders, whatever records are switched to frozen before; C80_batch: whatever is drawn within the ranges of generate_txns, all notes are accepted one by one and as a batch, with the keys, roots and time that the parameters give. Named hypotheses: the nullifiers of one note are distinct (a collision of the PRF otherwise), the drawn keys and asset codes are not degenerate, the encryption of memos succeeds, the proof system is complete. C80_needs_output: without an output besides the change no note is built, because an empty list of memos cannot be signed.
-/
import Verif.Lemmas.Builders
import Verif.Props.C21

namespace Cap

open Spec

variable [E : CapEnv] [S : CapExt]

/-- **A transfer of the native asset.** -/
theorem C80_transfer_native (complete : SnarkComplete) {ni no : ℕ} {d : Fin 256} {pk : TransferProvingKey}
    {vk : TransferVerifyingKey} (keys : transferPreprocess ni no d = .ok (pk, vk)) {users : List UserKeyPair}
    {fee_in fee_chg : Amount} {ins outs : List Amount} {in_blinds out_blinds : ℕ → F} {receivers : ℕ → UserPubKey}
    {attrs : ℕ → List IdentityAttribute} {expiry : U64} (hu : users.length = ni) (hi : ins.length + 1 = ni)
    (ho : outs.length + 1 = no) (fits : ni + no ≤ 3 ^ d.val) (small : 3 ^ d.val < 2 ^ 64)
    (attrs_len : ∀ i, (attrs i).length = 8) (one_out : outs ≠ []) (covers : fee_chg.val ≤ fee_in.val)
    (balanced : (ins.map Fin.val).sum = (outs.map Fin.val).sum) (amounts : fee_in.val + (ins.map Fin.val).sum < 2 ^ 127) :
    ∃ t, TransferBuilder.make ni no d users none in_blinds fee_in ins receivers out_blinds fee_chg outs attrs expiry = .ok t ∧
      t.input_ros.map (·.amount) = fee_in :: ins ∧ t.inputs.map (·.ro) = t.input_ros ∧
      t.inputs.map (·.owner_keypair) = users ∧
      t.output_ros = outs.mapIdx (fun i a => ⟨a, AssetDefinition.native, receivers i, .unfrozen, out_blinds (i + 1)⟩) ∧
      ((t.inputs.map nullifierOf).Nodup → CanReceive t.output_ros → ∀ b rng valid_until extra,
        ∃ n memos sig, t.buildTransferNote b rng pk valid_until extra = .ok (n, memos, sig) ∧
          TransferBuilt t (fee_in.val - fee_chg.val) rng vk Wallet.unexpiredValidUntil n memos sig) := by
  obtain ⟨t, h1, h2, h3, h4, h5, h6, h7⟩ := TransferBuilder.make_intro (asset := none) (in_blinds := in_blinds)
    (fee_in := fee_in) (receivers := receivers) (out_blinds := out_blinds) (fee_chg := fee_chg) (expiry := expiry)
    hu hi ho fits small attrs_len
  have hni : t.num_input = ni := by rw [h2.ni]; exact hi
  have hno : t.num_output = no := by rw [h2.no]; exact ho
  refine ⟨t, h1, h2.amounts_in, h2.inputs_ros, by rw [h2.inputs_keys, h6], ?_, fun once can b rng valid_until extra => ?_⟩
  · have : t.assetDef = AssetDefinition.native := by unfold TransferBuilder.assetDef; rw [h4]
    rw [h7, this]
  · rw [TransferBuilder.build_of_none h4]
    exact TransferBuilder.build_native complete (by rw [hni, hno, h5]; exact keys) h2 h3 h4 once can one_out covers balanced
      amounts b rng

/-- **A transfer of another asset**, with credentials that expire at `expiry`. -/
theorem C80_transfer_asset (complete : SnarkComplete) {ni no : ℕ} {d : Fin 256} {pk : TransferProvingKey}
    {vk : TransferVerifyingKey} (keys : transferPreprocess ni no d = .ok (pk, vk)) {users : List UserKeyPair}
    {fee_in fee_chg : Amount} {ins outs : List Amount} {in_blinds out_blinds : ℕ → F} {receivers : ℕ → UserPubKey}
    {attrs : ℕ → List IdentityAttribute} {expiry : U64} {viewer : ViewerKeyPair} {minter freezer : Fr} {seed : F}
    {a : NonNativeAsset} (made : NonNativeAsset.generate viewer minter freezer seed = .ok a) (viewed : viewer.pubKey ≠ 0)
    (hu : users.length = ni) (hi : ins.length + 1 = ni)
    (ho : outs.length + 1 = no) (fits : ni + no ≤ 3 ^ d.val) (small : 3 ^ d.val < 2 ^ 64)
    (attrs_len : ∀ i, (attrs i).length = 8) (one_in : ins ≠ []) (one_out : outs ≠ []) (covers : fee_chg.val ≤ fee_in.val)
    (balanced : (ins.map Fin.val).sum = (outs.map Fin.val).sum) (amounts : fee_in.val + (ins.map Fin.val).sum < 2 ^ 127) :
    ∃ t, TransferBuilder.make ni no d users (some a) in_blinds fee_in ins receivers out_blinds fee_chg outs attrs expiry =
        .ok t ∧
      t.input_ros.map (·.amount) = fee_in :: ins ∧ t.inputs.map (·.ro) = t.input_ros ∧
      t.inputs.map (·.owner_keypair) = users ∧
      t.output_ros = outs.mapIdx (fun i x => ⟨x, a.asset_def, receivers i, .unfrozen, out_blinds (i + 1)⟩) ∧
      ((t.inputs.map nullifierOf).Nodup → CanReceive t.output_ros → ∀ b rng valid_until extra, valid_until.val < 2 ^ 20 →
        valid_until ≤ expiry → expiry.val < valid_until.val + 2 ^ 20 →
        ∃ n memos sig, t.buildTransferNote b rng pk valid_until extra = .ok (n, memos, sig) ∧
          TransferBuilt t (fee_in.val - fee_chg.val) rng vk valid_until n memos sig) := by
  obtain ⟨t, h1, h2, h3, h4, h5, h6, h7⟩ := TransferBuilder.make_intro (asset := some a) (in_blinds := in_blinds)
    (fee_in := fee_in) (receivers := receivers) (out_blinds := out_blinds) (fee_chg := fee_chg) (expiry := expiry)
    hu hi ho fits small attrs_len
  have hni : t.num_input = ni := by rw [h2.ni]; exact hi
  have hno : t.num_output = no := by rw [h2.no]; exact ho
  refine ⟨t, h1, h2.amounts_in, h2.inputs_ros, by rw [h2.inputs_keys, h6], ?_,
    fun once can b rng valid_until extra window unexpired fresh => ?_⟩
  · have : t.assetDef = a.asset_def := by unfold TransferBuilder.assetDef; rw [h4]
    rw [h7, this]
  · rw [TransferBuilder.build_of_some h4]
    exact TransferBuilder.build_asset complete (by rw [hni, hno, h5]; exact keys) h2 h3 h4 made viewed once can one_in one_out
      covers balanced amounts window unexpired fresh b rng extra

/-- Without an output besides the change, no note is built. -/
theorem C80_needs_output (t : TransferBuilder) (none_out : t.output_ros = []) (b : Build) (rng : TransferBuilder.Draw)
    (pk : TransferProvingKey) (valid_until : U64) (extra : List Byte) :
    ¬ ∃ x, t.buildTransferNote b rng pk valid_until extra = .ok x := by
  have fin : ∀ n sk x, t.finish rng n sk ≠ .ok x := by
    intro n sk x h
    unfold TransferBuilder.finish at h
    rw [none_out] at h
    simp only [bind_ok_iff] at h
    obtain ⟨memos, h1, sig, h2, -⟩ := h
    cases h1
    unfold signReceiverMemos at h2
    rw [bind_ok_iff] at h2
    obtain ⟨dg, h3, -⟩ := h2
    exact (digest_ok.1 h3).1 rfl
  rintro ⟨x, h⟩
  unfold TransferBuilder.buildTransferNote at h
  split at h
  · unfold TransferBuilder.buildNative at h
    rw [bind_ok_iff] at h
    obtain ⟨-, -, h⟩ := h
    split at h
    · cases h
    · simp only [bind_ok_iff] at h
      obtain ⟨fee, -, y, -, h⟩ := h
      exact fin _ _ _ h
  · unfold TransferBuilder.buildNonNative at h
    rw [bind_ok_iff] at h
    obtain ⟨-, -, h⟩ := h
    split at h
    · cases h
    · simp only [bind_ok_iff] at h
      obtain ⟨fee, -, y, -, h⟩ := h
      exact fin _ _ _ h

/-- **A mint.** -/
theorem C80_mint (complete : SnarkComplete) {d : Fin 256} {pk : MintProvingKey} {vk : MintVerifyingKey}
    (keys : mintPreprocess d = .ok (pk, vk)) {seed fee_blind mint_blind : F} {input_amount fee mint_amount : Amount}
    {minter receiver : UserKeyPair} {viewer : ViewerKeyPair}
    (native : newDomestic seed MintBuilder.description ≠ nativeCode)
    (dummy : newDomestic seed MintBuilder.description ≠ dummyCode) (covers : fee.val ≤ input_amount.val)
    (small : mint_amount.val < 2 ^ 127) :
    ∃ m, MintBuilder.new seed fee_blind mint_blind d input_amount fee mint_amount minter receiver viewer = .ok m ∧
      m.fee = fee ∧ m.fee_ro = ⟨input_amount, AssetDefinition.native, minter.pubKey, .unfrozen, fee_blind⟩ ∧
      m.mint_ro = ⟨mint_amount, ⟨newDomestic seed MintBuilder.description, AssetPolicy.default.setViewerPubKey viewer.pubKey⟩,
        receiver.pubKey, .unfrozen, mint_blind⟩ ∧
      ∀ chg_blind rng, ∃ n sk chg, m.buildMintNote chg_blind rng pk = .ok (n, sk, chg) ∧ MintBuilt m vk m.acc.root n chg := by
  obtain ⟨m, root, h1, h2, h3, h4, h5, h6, h7, h8⟩ := MintBuilder.new_intro (fee_blind := fee_blind) (mint_blind := mint_blind)
    (d := d) (input_amount := input_amount) (fee := fee) (mint_amount := mint_amount) (minter := minter) (receiver := receiver)
    (viewer := viewer) native dummy
  refine ⟨m, h1, h5, h6, h8, fun chg_blind rng => ?_⟩
  rw [h3.root_eq]
  exact MintBuilder.build_mint complete (by rw [h4]; exact keys) h2 h3 (by rw [h5, h6]; exact covers) (by rw [h8]; exact small)
    chg_blind rng

/-- **Freezing**: the records are unfrozen at first, and those of `flags` are switched to frozen one after the other. -/
theorem C80_freeze (complete : SnarkComplete) {d : Fin 256} {pk : FreezeProvingKey} {vk : FreezeVerifyingKey}
    {draws : ℕ → FreezeBuilder.InputSample} {fee_blind : F} {amounts : List Amount} {fee_in fee : Amount}
    {k : UserKeyPair} {freezers : List Fr} (keys : freezePreprocess (freezers.length + 1) d = .ok (pk, vk))
    (len : amounts.length = freezers.length) (ne : freezers ≠ []) (fits : freezers.length + 1 ≤ 3 ^ d.val)
    (small : freezers.length + 1 < 2 ^ 64) (hk : ∀ s ∈ freezers, smulFr s E.gen ≠ 0)
    (owners : ∀ i, (draws i).owner.pubKey.address ≠ 0) (covers : fee.val ≤ fee_in.val) (frozen : ℕ → Bool) :
    ∃ f0 f, FreezeBuilder.new draws fee_blind d amounts fee_in fee k (freezers.map FreezerKeyPair.generate) = .ok f0 ∧
      FreezeBuilder.freezeSome frozen f0 (List.range freezers.length) = .ok f ∧
      f.inputs.map (·.ro.amount) = amounts ∧ f.inputs.map (·.keypair) = freezers.map FreezerKeyPair.generate ∧
      (∀ (j : ℕ) i, f.inputs[j]? = some i → i.ro.freeze_flag = if frozen j then .frozen else .unfrozen) ∧ f.fee = fee ∧
      ((nullifierOf f.fee_input.toTransferInput :: f.inputs.map freezerNullifierOf).Nodup → ∀ chg_blind rng,
        ∃ n sk chg outs, f.buildFreezeNote chg_blind rng pk = .ok (n, sk, chg, outs) ∧
          FreezeBuilt f rng vk f.fee_input.acc.root n chg outs) := by
  obtain ⟨f0, h1, h2, h3, h4, h5, h6, h7, h8, h9, h10⟩ := FreezeBuilder.new_intro (draws := draws) (fee_blind := fee_blind)
    (d := d) (fee_in := fee_in) (fee := fee) (k := k) len fits small hk owners
  have hlen : f0.inputs.length = freezers.length := by
    have := congrArg List.length h6
    simpa using this
  obtain ⟨f, g1, g2, ⟨root, g3⟩, g4, g5⟩ := FreezeBuilder.freezeSome_intro (frozen := frozen) (l := List.range freezers.length)
    h2 h3 (fun i hi => by rw [hlen]; exact List.mem_range.1 hi) (by rw [hlen, h4]; exact fits) (by rw [hlen]; exact small)
  have hlen' : f.inputs.length = freezers.length := by
    have := congrArg List.length g4.keypairs
    simpa [hlen] using this
  refine ⟨f0, f, h1, g1, g4.amounts.trans h5, g4.keypairs.trans h6, ?_, g4.fee.trans h10, fun once chg_blind rng => ?_⟩
  · intro j i hj
    have hlt := (List.getElem?_eq_some_iff.1 hj).1
    have h0 : f0.inputs[j]? = some (f0.inputs[j]'(by omega)) := List.getElem?_eq_getElem _
    rw [g5 j _ i h0 hj, h7 _ (List.getElem_mem _)]
    have : j ∈ List.range freezers.length := List.mem_range.2 (by omega)
    simp only [this, true_and]
  · rw [g3.fee.root_eq]
    refine FreezeBuilder.build_freeze complete (by rw [hlen', g4.depth, h4]; exact keys) g2 g3 ?_ ?_ once chg_blind rng
    · intro h
      rw [h] at hlen'
      exact ne (List.length_eq_zero_iff.1 hlen'.symm)
    · rw [g4.fee, h10, g4.fee_ro, h8]
      exact covers

/-- **A list of transactions.**  Whatever is drawn, all of them are accepted, one by one and together. -/
theorem C80_batch (complete : SnarkComplete) (batch : SnarkBatch) {x : TxnsParams.Samples} {d : Fin 256}
    {tpk : TransferProvingKey} {tvk : TransferVerifyingKey} (tkeys : transferPreprocess 2 3 d = .ok (tpk, tvk))
    {mpk : MintProvingKey} {mvk : MintVerifyingKey} (mkeys : mintPreprocess d = .ok (mpk, mvk))
    {fpk : FreezeProvingKey} {fvk : FreezeVerifyingKey} (fkeys : freezePreprocess 3 d = .ok (fpk, fvk))
    (users : x.users.length = 2) (ht : ∀ s ∈ x.transfers, TransferInRange s) (hm : ∀ s ∈ x.mints, MintInRange s)
    (hf : ∀ s ∈ x.freezes, FreezeInRange s) (five : 5 ≤ 3 ^ d.val)
    (fits : 2 * x.transfers.length + x.mints.length + 3 * x.freezes.length ≤ 3 ^ d.val) (small : 3 ^ d.val < 2 ^ 64)
    (once : ∀ p, TxnsParams.prepare x d = .ok p →
      (∀ y ∈ p.transfers, (y.1.inputs.map nullifierOf).Nodup ∧ CanReceive y.1.output_ros) ∧
      ∀ y ∈ p.freezes, (nullifierOf y.1.fee_input.toTransferInput :: y.1.inputs.map freezerNullifierOf).Nodup) (b : Build) :
    ∃ (params : TxnsParams) (ts : List TransferNote) (ms : List MintNote) (fs : List FreezeNote), TxnsParams.generateTxns b x d = .ok params ∧
      params.txns = ts.map .transfer ++ ms.map .mint ++ fs.map .freeze ∧
      ts.length = x.transfers.length ∧ ms.length = x.mints.length ∧ fs.length = x.freezes.length ∧
      params.valid_until = 1000 ∧ ∀ now, now ≤ params.valid_until →
        (∀ n ∈ ts, n.verify tvk params.merkle_root now = .ok ()) ∧ (∀ n ∈ ms, n.verify mvk params.merkle_root = .ok ()) ∧
        (∀ n ∈ fs, n.verify fvk params.merkle_root = .ok ()) ∧
        (params.txns ≠ [] → txnBatchVerify params.txns params.merkleRoots now params.verifyingKeys = .ok ()) := by
  obtain ⟨p, hp, r⟩ := TxnsParams.prepare_intro users ht hm hf five fits small
  obtain ⟨once_t, once_f⟩ := once p hp
  obtain ⟨ts, t1, t2⟩ := TxnsParams.mapM_intro (l := p.transfers) (g := TransactionNote.transfer)
    (P := fun _ n => ∀ now, now ≤ (1000 : U64) → n.verify tvk p.root now = .ok ()) (f := fun y => do
      let (note, _, _) ← unwrapRes (y.1.buildTransferNote b y.2.draw tpk 1000 y.2.extra)
      .ok (TransactionNote.transfer note)) (fun y hy => by
    obtain ⟨hs, t, accs, h1, h2, h3, h4⟩ := r.transfers y hy
    obtain ⟨o1, o2⟩ := once_t y hy
    rw [h3] at h4 o1 o2
    obtain ⟨n, memos, sig, g1, g2⟩ := h1.build complete (ht _ hs) tkeys h2 h4 o1 o2 b y.2.draw y.2.extra
    rw [← h3] at g1 g2
    refine ⟨n, ?_, ?_⟩
    · rw [g1]; rfl
    · have := g2.valid
      rw [show y.1.root = p.root by rw [h3]] at this
      exact this)
  obtain ⟨ms, m1, m2⟩ := TxnsParams.mapM_intro (l := p.mints) (g := TransactionNote.mint)
    (P := fun _ n => n.verify mvk p.root = .ok ()) (f := fun y => do
      let (note, _, _) ← unwrapRes (y.1.buildMintNote y.2.chg_blind y.2.note mpk)
      .ok (TransactionNote.mint note)) (fun y hy => by
    obtain ⟨hs, m, acc, h1, h2, h3⟩ := r.mints y hy
    have hr := hm _ hs
    obtain ⟨n, sk, chg, g1, g2⟩ := MintBuilder.build_mint complete (m := y.1) (root := p.root)
      (by rw [h2]; show mintPreprocess m.tree_depth = _; rw [h1.depth]; exact mkeys)
      (by rw [h2]; exact ⟨h1.shaped.native, h1.shaped.unfrozen, h1.shaped.owned, h1.shaped.mintable⟩)
      (by rw [h2]; show Proves m.tree_depth.val _ _ _; rw [h1.depth]; exact h3)
      (by rw [h2]; show m.fee.val ≤ m.fee_ro.amount.val; rw [h1.fee, h1.fee_ro]; exact hr.fee.2)
      (by
        rw [h2]
        show m.mint_ro.amount.val < _
        rw [h1.amount]
        have := hr.mint_amount.2
        omega) y.2.chg_blind y.2.note
    exact ⟨n, by rw [g1]; rfl, g2.valid⟩)
  obtain ⟨fs, f1, f2⟩ := TxnsParams.mapM_intro (l := p.freezes) (g := TransactionNote.freeze)
    (P := fun _ n => n.verify fvk p.root = .ok ()) (f := fun y => do
      let (note, _, _, _) ← unwrapRes (y.1.buildFreezeNote y.2.chg_blind y.2.note fpk)
      .ok (TransactionNote.freeze note)) (fun y hy => by
    obtain ⟨hs, f, h1, h2, h3⟩ := r.freezes y hy
    have hr := hf _ hs
    have hlen : y.1.inputs.length = 2 := by rw [h2.len]; exact h1.len
    obtain ⟨n, sk, chg, outs, g1, g2⟩ := FreezeBuilder.build_freeze complete (f := y.1) (root := p.root)
      (by rw [hlen, h2.depth, h1.depth]; exact fkeys) (h2.shaped h1.shaped) h3
      (by intro h; rw [h] at hlen; cases hlen)
      (by rw [h2.fee, h1.fee, h2.fee_ro, h1.fee_ro]; exact hr.fee.2) (once_f y hy) y.2.chg_blind y.2.note
    exact ⟨n, by rw [g1]; rfl, g2.valid⟩)
  have v1 : ∀ now, now ≤ (1000 : U64) → ∀ n ∈ ts, n.verify tvk p.root now = .ok () := fun now hn n h => by
    obtain ⟨-, -, h⟩ := TxnsParams.forall₂_right t2 n h
    exact h now hn
  have v2 : ∀ n ∈ ms, n.verify mvk p.root = .ok () := fun n h => by
    obtain ⟨-, -, h⟩ := TxnsParams.forall₂_right m2 n h
    exact h
  have v3 : ∀ n ∈ fs, n.verify fvk p.root = .ok () := fun n h => by
    obtain ⟨-, -, h⟩ := TxnsParams.forall₂_right f2 n h
    exact h
  let txns : List TransactionNote := ts.map .transfer ++ ms.map .mint ++ fs.map .freeze
  let params : TxnsParams := ⟨txns, tvk, mvk, fvk, 1000, p.root⟩
  refine ⟨params, ts, ms, fs, ?_, rfl, by rw [← t2.length_eq]; exact r.transfers_len, by rw [← m2.length_eq]; exact r.mints_len,
    by rw [← f2.length_eq]; exact r.freezes_len, rfl, fun now hn => ⟨v1 now hn, v2, v3, fun ne => ?_⟩⟩
  · unfold TxnsParams.generateTxns
    rw [tkeys, mkeys, fkeys]
    show (do let p ← TxnsParams.prepare x d; _) = _
    rw [bind_ok_iff]
    refine ⟨p, hp, ?_⟩
    rw [bind_ok_iff]
    refine ⟨_, t1, ?_⟩
    rw [bind_ok_iff]
    refine ⟨_, m1, ?_⟩
    rw [bind_ok_iff]
    exact ⟨_, f1, rfl⟩
  · have key : ∀ (k : ℕ) t vk, txns[k]? = some t → params.verifyingKeys[k]? = some vk →
        SameKind t vk ∧ VerifiesAlone now t p.root vk := by
      intro k t vk h1 h2
      have h2' : (txns.map (fun
        | .transfer _ => TransactionVerifyingKey.transfer tvk
        | .mint _ => .mint mvk
        | .freeze _ => .freeze fvk))[k]? = some vk := h2
      rw [List.getElem?_map, h1, Option.map_some, Option.some.injEq] at h2'
      have hmem := List.mem_of_getElem? h1
      simp only [txns, List.mem_append, List.mem_map] at hmem
      rcases hmem with (⟨n, hn', rfl⟩ | ⟨n, hn', rfl⟩) | ⟨n, hn', rfl⟩ <;> subst h2'
      · exact ⟨trivial, v1 now hn n hn'⟩
      · exact ⟨trivial, v2 n hn'⟩
      · exact ⟨trivial, v3 n hn'⟩
    refine ((C21_partial batch ne (fun k t vk h1 h2 => (key k t vk h1 h2).1)).2 ⟨?_, ?_, ?_⟩).1
    · unfold TxnsParams.merkleRoots; simp
    · unfold TxnsParams.verifyingKeys; simp
    · intro k t root vk h1 h2 h3
      have : root = p.root := by
        unfold TxnsParams.merkleRoots at h2
        exact List.eq_of_mem_replicate (List.mem_of_getElem? h2)
      rw [this]
      exact (key k t vk h1 h3).2

end Cap

namespace Cap.Examples
open Toy Spec

/-- what is drawn for a transfer: fee record 12, change 5, 3 units, so 6 to be moved -/
def drawn80 (native : Bool) : TransferBuilder.Sample :=
  ⟨1500, 12, 5, 3, native, viewer, issuer, (7 : ZMod r), (71 : ZMod p), fun i => ((80 + i : ℕ) : ZMod p), fun _ => bob,
    fun i => ((90 + i : ℕ) : ZMod p), fun _ => [1, 2, 3, 4, 5, 6, 7, 8], ⟨(61 : ZMod p), rng, fun i => i⟩, [4, 5]⟩

def drawnMint80 : MintBuilder.Sample :=
  ⟨30, 10, 70, alice, bob, viewer, (72 : ZMod p), (73 : ZMod p), (74 : ZMod p), (75 : ZMod p), rng⟩

def drawnFreeze80 : FreezeBuilder.Sample :=
  ⟨fun i => Fin.ofNat (2 ^ 128) (i + 20), fun i => ⟨asset, if i = 0 then alice else bob, ((100 + i : ℕ) : ZMod p)⟩,
    fun i => i = 1, 9, 4, alice, [(7 : ZMod r), (8 : ZMod r)], (76 : ZMod p), (77 : ZMod p),
    ⟨fun i => ((110 + i : ℕ) : ZMod p), (78 : ZMod r), 0⟩⟩

def drawns80 : TxnsParams.Samples := ⟨[alice, bob], [drawn80 true, drawn80 false], [drawnMint80], [drawnFreeze80]⟩

theorem prepared80 : isOk (TxnsParams.prepare drawns80 2) = true := by decide +kernel

theorem toyReceives (l : List RecordOpening) : CanReceive l := fun _ _ _ => ⟨_, rfl⟩

def prep80 : TxnsParams.Prepared := okVal (TxnsParams.prepare drawns80 2) prepared80

theorem prep80_eq : TxnsParams.prepare drawns80 2 = .ok prep80 := okVal_eq _ prepared80

theorem once80 : (prep80.transfers.all (fun y => decide (y.1.inputs.map nullifierOf).Nodup) &&
    prep80.freezes.all (fun y => decide
      (nullifierOf y.1.fee_input.toTransferInput :: y.1.inputs.map freezerNullifierOf).Nodup)) = true := by
  decide +kernel

attribute [irreducible] prep80

theorem freezers80 : smulFr (7 : ZMod r) E.gen ≠ 0 ∧ smulFr (8 : ZMod r) E.gen ≠ 0 := by decide +kernel

theorem viewer_real : viewer.pubKey ≠ 0 := by decide +kernel

theorem inRange80 (native : Bool) : TransferInRange (drawn80 native) := by
  cases native <;> exact ⟨by decide, by decide, by decide, by decide, fun _ => rfl, viewer_real, by decide +kernel⟩

/-- Two transfers, one of them native, a mint, and a note that freezes one record and releases another. -/
example : ∃ (params : TxnsParams) (ts : List TransferNote) (ms : List MintNote) (fs : List FreezeNote),
    TxnsParams.generateTxns .debug drawns80 2 = .ok params ∧
    params.txns = ts.map .transfer ++ ms.map .mint ++ fs.map .freeze ∧ ts.length = 2 ∧ ms.length = 1 ∧ fs.length = 1 ∧
    txnBatchVerify params.txns params.merkleRoots 1000 params.verifyingKeys = .ok () := by
  have big := C80_batch Toy.complete Toy.batch (x := drawns80) (d := 2) (tkeys := rfl) (mkeys := rfl) (fkeys := rfl) rfl
    (ht := ?_) (hm := ?_) (hf := ?_) (by decide) (by decide) (by decide) (once := ?_) .debug
  · obtain ⟨params, ts, ms, fs, h1, h2, h3, h4, h5, h6, h7⟩ := big
    refine ⟨params, ts, ms, fs, h1, h2, h3, h4, h5, (h7 1000 (by rw [h6])).2.2.2 ?_⟩
    intro h
    have := congrArg List.length h2
    rw [h] at this
    simp only [List.length_append, List.length_map, h3, h4, h5] at this
    exact absurd this (by decide)
  · intro s hs
    rcases List.mem_cons.1 hs with rfl | hs
    · exact inRange80 true
    · rcases List.mem_cons.1 hs with rfl | hs
      · exact inRange80 false
      · cases hs
  · intro s hs
    rw [List.mem_singleton.1 hs]
    exact ⟨by decide, by decide, by decide, by decide +kernel⟩
  · intro s hs
    rw [List.mem_singleton.1 hs]
    refine ⟨rfl, by decide, by decide, ?_, ?_⟩
    · intro k hk
      rcases List.mem_cons.1 hk with rfl | hk
      · exact freezers80.1
      · rw [List.mem_singleton.1 hk]
        exact freezers80.2
    · intro i
      show ((if i = 0 then alice else bob : UserKeyPair).pubKey).address ≠ 0
      split
      · decide +kernel
      · decide +kernel
  · intro p hp
    have e' : prep80 = p := Except.ok.inj (prep80_eq.symm.trans hp)
    have h := once80
    rw [e', Bool.and_eq_true, List.all_eq_true, List.all_eq_true] at h
    exact ⟨fun y hy => ⟨of_decide_eq_true (h.1 y hy), toyReceives _⟩, fun y hy => of_decide_eq_true (h.2 y hy)⟩

def native80 : Res TransferBuilder :=
  TransferBuilder.make 3 3 2 [alice, bob, alice] none (fun i => ((i : ℕ) : ZMod p)) 20 [4, 6]
    (fun _ => bob.pubKey) (fun i => ((i + 5 : ℕ) : ZMod p)) 15 [3, 7] (fun _ => [1, 2, 3, 4, 5, 6, 7, 8]) 1000

theorem native80_ok : isOk native80 = true := by decide +kernel

theorem native80_distinct : ((okVal native80 native80_ok).inputs.map nullifierOf).Nodup := by decide +kernel

/-- a native transfer with amounts 4 and 6 for 3 and 7 -/
example : ∃ t n memos sig, native80 = .ok t ∧
    t.buildTransferNote .debug ⟨(61 : ZMod p), rng, fun i => i⟩ ⟨.transfer 3 3 2, 3, 3, 2⟩ 800 [1] = .ok (n, memos, sig) ∧
    n.aux_info.fee.val = 5 ∧ memos.length = 2 ∧ n.verify ⟨.transfer 3 3 2, 3, 3, 2⟩ t.root 100000 = .ok () := by
  obtain ⟨t, h1, -, -, -, h5, h6⟩ := C80_transfer_native Toy.complete (ni := 3) (no := 3) (d := 2) (keys := rfl)
    (users := [alice, bob, alice]) (fee_in := 20) (fee_chg := 15) (ins := [4, 6]) (outs := [3, 7])
    (in_blinds := fun i => ((i : ℕ) : ZMod p)) (out_blinds := fun i => ((i + 5 : ℕ) : ZMod p))
    (receivers := fun _ => bob.pubKey) (attrs := fun _ => [1, 2, 3, 4, 5, 6, 7, 8]) (expiry := 1000) rfl rfl rfl (by decide)
    (by decide) (fun _ => rfl) (by decide) (by decide) (by decide) (by decide)
  have e : okVal native80 native80_ok = t :=
    Except.ok.inj ((okVal_eq native80 native80_ok).symm.trans h1)
  obtain ⟨n, memos, sig, g1, g2⟩ := h6 (by rw [← e]; exact native80_distinct) (toyReceives _) .debug
    ⟨(61 : ZMod p), rng, fun i => i⟩ 800 [1]
  refine ⟨t, n, memos, sig, h1, g1, g2.pays, ?_, g2.valid 100000 (by decide)⟩
  rw [g2.memos_len, h5]
  rfl

/-- a mint of 70 -/
example : ∃ m n sk chg, MintBuilder.new (72 : ZMod p) (73 : ZMod p) (74 : ZMod p) 2 30 10 70 alice bob viewer = .ok m ∧
    m.buildMintNote (75 : ZMod p) rng ⟨.mint 2, 2⟩ = .ok (n, sk, chg) ∧ n.mint_amount = 70 ∧ chg.amount.val = 20 := by
  obtain ⟨m, h1, h2, h3, h4, h5⟩ := C80_mint Toy.complete (d := 2) (keys := rfl) (seed := (72 : ZMod p))
    (fee_blind := (73 : ZMod p)) (mint_blind := (74 : ZMod p)) (input_amount := 30) (fee := 10) (mint_amount := 70)
    (minter := alice) (receiver := bob) (viewer := viewer) (by decide +kernel) (by decide +kernel) (by decide) (by decide)
  obtain ⟨n, sk, chg, g1, g2⟩ := h5 (75 : ZMod p) rng
  refine ⟨m, n, sk, chg, h1, g1, by rw [g2.amount, h4], ?_⟩
  have := g2.change
  rw [h2, h3] at this
  have : chg.amount.val + 10 = 30 := this
  omega

def asset80 : NonNativeAsset := okVal (NonNativeAsset.generate viewer issuer (7 : ZMod r) (71 : ZMod p)) (by decide +kernel)

def transfer80 : Res TransferBuilder :=
  TransferBuilder.make 2 3 2 [alice, bob] (some asset80) (fun i => ((i : ℕ) : ZMod p)) 20 [10]
    (fun _ => bob.pubKey) (fun i => ((i + 5 : ℕ) : ZMod p)) 15 [3, 7] (fun _ => [1, 2, 3, 4, 5, 6, 7, 8]) 1000

theorem transfer80_ok : isOk transfer80 = true := by decide +kernel

theorem transfer80_distinct : ((okVal transfer80 transfer80_ok).inputs.map nullifierOf).Nodup := by decide +kernel

/-- a transfer of 10 of another asset, for 3 and 7 -/
example : ∃ t n memos sig, transfer80 = .ok t ∧
    t.buildTransferNote .debug ⟨(61 : ZMod p), rng, fun i => i⟩ ⟨.transfer 2 3 2, 2, 3, 2⟩ 800 [1] = .ok (n, memos, sig) ∧
    n.aux_info.fee.val = 5 ∧ memos.length = 2 ∧ n.verify ⟨.transfer 2 3 2, 2, 3, 2⟩ t.root 800 = .ok () := by
  obtain ⟨t, h1, -, -, -, h5, h6⟩ := C80_transfer_asset Toy.complete (ni := 2) (no := 3) (d := 2) (keys := rfl)
    (users := [alice, bob]) (fee_in := 20) (fee_chg := 15) (ins := [10]) (outs := [3, 7]) (a := asset80)
    (in_blinds := fun i => ((i : ℕ) : ZMod p)) (out_blinds := fun i => ((i + 5 : ℕ) : ZMod p))
    (receivers := fun _ => bob.pubKey) (attrs := fun _ => [1, 2, 3, 4, 5, 6, 7, 8]) (expiry := 1000)
    (okVal_eq _ _) viewer_real rfl rfl rfl (by decide)
    (by decide) (fun _ => rfl) (by decide) (by decide) (by decide) (by decide) (by decide)
  have e : okVal transfer80 transfer80_ok = t :=
    Except.ok.inj ((okVal_eq transfer80 transfer80_ok).symm.trans h1)
  obtain ⟨n, memos, sig, g1, g2⟩ := h6 (by rw [← e]; exact transfer80_distinct) (toyReceives _) .debug
    ⟨(61 : ZMod p), rng, fun i => i⟩ 800 [1] (by decide) (by decide) (by decide)
  refine ⟨t, n, memos, sig, h1, g1, g2.pays, ?_, g2.valid 800 (by decide)⟩
  rw [g2.memos_len, h5]
  rfl

/-- a builder without an output besides the change -/
example : ∃ t, TransferBuilder.make 1 1 2 [alice] none (fun i => ((i : ℕ) : ZMod p)) 20 []
    (fun _ => bob.pubKey) (fun i => ((i + 5 : ℕ) : ZMod p)) 15 [] (fun _ => [1, 2, 3, 4, 5, 6, 7, 8]) 1000 = .ok t ∧
    t.output_ros = [] := by
  obtain ⟨t, h1, -, -, h4, -, -, h7⟩ := TransferBuilder.make_intro (asset := none) (in_blinds := fun i => ((i : ℕ) : ZMod p))
    (users := [alice]) (ins := []) (outs := []) (ni := 1) (no := 1) (d := 2)
    (fee_in := 20) (receivers := fun _ => bob.pubKey) (out_blinds := fun i => ((i + 5 : ℕ) : ZMod p)) (fee_chg := 15)
    (attrs := fun _ => [1, 2, 3, 4, 5, 6, 7, 8]) (expiry := 1000) rfl rfl rfl (by decide) (by decide) (fun _ => rfl)
  exact ⟨t, h1, h7⟩

def freeze80 : Res FreezeBuilder := do
  let f ← FreezeBuilder.new drawnFreeze80.inputs (76 : ZMod p) 2 [20, 21] 9 4 alice
    ([(7 : ZMod r), (8 : ZMod r)].map FreezerKeyPair.generate)
  FreezeBuilder.freezeSome (fun i => i = 1) f (List.range 2)

theorem freeze80_ok : isOk freeze80 = true := by decide +kernel

theorem freeze80_distinct : (nullifierOf (okVal freeze80 freeze80_ok).fee_input.toTransferInput ::
    (okVal freeze80 freeze80_ok).inputs.map freezerNullifierOf).Nodup := by decide +kernel

/-- the first of two records is frozen, the second is released -/
example : ∃ f n sk chg outs, freeze80 = .ok f ∧
    f.buildFreezeNote (77 : ZMod p) ⟨fun i => ((110 + i : ℕ) : ZMod p), (78 : ZMod r), 0⟩ ⟨.freeze 3 2, 2, 3⟩ =
      .ok (n, sk, chg, outs) ∧
    n.verify ⟨.freeze 3 2, 2, 3⟩ f.fee_input.acc.root = .ok () := by
  obtain ⟨f0, f, h1, h2, -, -, -, -, h3⟩ := C80_freeze Toy.complete (d := 2) (draws := drawnFreeze80.inputs)
    (fee_blind := (76 : ZMod p)) (amounts := [20, 21]) (fee_in := 9) (fee := 4) (k := alice)
    (freezers := [(7 : ZMod r), (8 : ZMod r)]) (keys := rfl) rfl (by simp) (by decide) (by decide)
    (fun k hk => by
      rcases List.mem_cons.1 hk with rfl | hk
      · exact freezers80.1
      · rw [List.mem_singleton.1 hk]
        exact freezers80.2)
    (fun i => by
      show ((if i = 0 then alice else bob : UserKeyPair).pubKey).address ≠ 0
      split
      · decide +kernel
      · decide +kernel) (by decide) (fun i => i = 1)
  have hf : freeze80 = .ok f := bind_ok_iff.2 ⟨f0, h1, h2⟩
  have e : okVal freeze80 freeze80_ok = f := Except.ok.inj ((okVal_eq freeze80 freeze80_ok).symm.trans hf)
  obtain ⟨n, sk, chg, outs, g1, g2⟩ := h3 (by rw [← e]; exact freeze80_distinct) (77 : ZMod p)
    ⟨fun i => ((110 + i : ℕ) : ZMod p), (78 : ZMod r), 0⟩
  exact ⟨f, n, sk, chg, outs, hf, g1, g2.valid⟩

end Cap.Examples
