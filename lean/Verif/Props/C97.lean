/-
C97: what the benchmarks time are valid transactions, and their batch is not a block.

status: proved
note: C97_transfer, C97_mint, C97_freeze: for every number of inputs and outputs from two on that fits into the tree, and whatever is drawn, the builders of the benchmarks make records with the stated amounts, and the notes built from them have the stated numbers of inputs and outputs, pay fees of 1, 4 and 5, and pass the very check that is timed (transfers at every time up to 1234). C97_sizes: the sizes and the depth that the benchmarks use are among these. C97_batch: for every k from 1 on, the list that the batch benchmark verifies (k copies of each of the three notes) has 3 k entries, as its title says, and is accepted. C97_not_block: from k = 2 on it is refused as a block on every ledger at every time, because it spends each record k times; so the benchmark times a batch that no ledger accepts. C97_too_small: without an input, or with fewer than two outputs, the builders panic. Named hypotheses as in C80: distinct nullifiers in one note, drawn keys and codes not degenerate, memos can be encrypted, the proof system is complete.
-/
import Verif.Model.Bench
import Verif.Props.C51
import Verif.Props.C80

namespace Cap

open Spec

variable [E : CapEnv]

omit E in
theorem sum_ones (n : ℕ) : ((List.replicate n (1 : Amount)).map Fin.val).sum = n := by
  simp

omit E in
theorem sum_first {n : ℕ} (h : n < 2 ^ 128) (m : ℕ) :
    ((Fin.ofNat (2 ^ 128) n :: List.replicate m (0 : Amount)).map Fin.val).sum = n := by
  have : n % 2 ^ 128 = n := Nat.mod_eq_of_lt h
  simpa [Fin.ofNat] using this

theorem C97_too_small {users : List UserKeyPair} {ni no : ℕ} {d : Fin 256} {a : NonNativeAsset} {ib ob : ℕ → F}
    {rc : ℕ → UserPubKey} {attrs : ℕ → List IdentityAttribute} :
    (ni = 0 ∨ no < 2 → Bench.builderTransfer users ni no d a ib rc ob attrs = .error .panic) ∧
    ∀ draws fee_blind k freezers, ni = 0 → Bench.builderFreeze draws fee_blind k freezers ni d = .error .panic := by
  constructor
  · intro h
    unfold Bench.builderTransfer
    by_cases h1 : 1 ≤ ni
    · have h2 : ¬ 2 ≤ no := by omega
      simp [ensure, h1, h2, bind, Except.bind]
    · simp [ensure, h1, bind, Except.bind]
  · rintro draws fee_blind k freezers rfl
    simp [Bench.builderFreeze, ensure, bind, Except.bind]

/-- The sizes that are measured are within the bounds of the theorems below. -/
theorem C97_sizes : (∀ ni ∈ Bench.numInputsRange, ∀ no ∈ Bench.numOutputsRange,
    2 ≤ ni ∧ 2 ≤ no ∧ ni + no ≤ 3 ^ Bench.treeDepth.val) ∧ 3 ^ Bench.treeDepth.val < 2 ^ 64 := by
  decide +kernel

variable [S : CapExt]

theorem C97_transfer (complete : SnarkComplete) {ni no : ℕ} {d : Fin 256} {pk : TransferProvingKey}
    {vk : TransferVerifyingKey} (keys : transferPreprocess ni no d = .ok (pk, vk)) {users : List UserKeyPair}
    {in_blinds out_blinds : ℕ → F} {receivers : ℕ → UserPubKey} {attrs : ℕ → List IdentityAttribute}
    {viewer : ViewerKeyPair} {minter freezer : Fr} {seed : F} {a : NonNativeAsset}
    (made : NonNativeAsset.generate viewer minter freezer seed = .ok a) (viewed : viewer.pubKey ≠ 0)
    (hu : users.length = ni) (hi : 2 ≤ ni) (ho : 2 ≤ no) (fits : ni + no ≤ 3 ^ d.val) (small : 3 ^ d.val < 2 ^ 64)
    (attrs_len : ∀ i, (attrs i).length = 8) :
    ∃ t, Bench.builderTransfer users ni no d a in_blinds receivers out_blinds attrs = .ok t ∧
      (t.input_ros.map (fun r => r.amount.val)) = 30 :: List.replicate (ni - 1) 1 ∧
      (t.output_ros.map (fun r => r.amount.val)) = (ni - 1) :: List.replicate (no - 2) 0 ∧
      (∀ r ∈ t.output_ros, r.asset_def = a.asset_def) ∧
      ((t.inputs.map nullifierOf).Nodup → CanReceive t.output_ros → ∀ b rng,
        ∃ n memos sig, t.buildTransferNote b rng pk 1234 [] = .ok (n, memos, sig) ∧ n.aux_info.fee.val = 1 ∧
          n.inputs_nullifiers.length = ni ∧ n.output_commitments.tail.length = no - 1 ∧
          ∀ now : U64, now ≤ 1234 → n.verify vk n.aux_info.merkle_root now = .ok ()) := by
  have hlt : ni - 1 < 2 ^ 64 := by omega
  have hlt' : ni - 1 < 2 ^ 128 := hlt.trans (by norm_num)
  obtain ⟨t, h1, h2, h3, h4, h5, h6⟩ := C80_transfer_asset complete keys (users := users) (fee_in := 30) (fee_chg := 29)
    (ins := List.replicate (ni - 1) 1) (outs := Fin.ofNat (2 ^ 128) (ni - 1) :: List.replicate (no - 2) 0)
    (in_blinds := in_blinds) (out_blinds := out_blinds) (receivers := receivers) (attrs := attrs) (expiry := 9999) made viewed
    hu (by rw [List.length_replicate]; omega) (by rw [List.length_cons, List.length_replicate]; omega) fits small attrs_len
    (by intro h; have := congrArg List.length h; simp at this; omega) (by simp) (by decide)
    (by rw [sum_ones, sum_first hlt'])
    (by rw [sum_ones]; have : (30 : Amount).val = 30 := rfl
        rw [this]; exact (show 30 + (ni - 1) < 30 + 2 ^ 64 by omega).trans (by norm_num))
  refine ⟨t, ?_, ?_, ?_, ?_, ?_⟩
  · unfold Bench.builderTransfer
    have e1 : 1 ≤ ni := by omega
    simp only [ensure, e1, ho, decide_true, if_true, bind, Except.bind]
    exact h1
  · have := congrArg (List.map Fin.val) h2
    simpa [List.map_map, Function.comp_def] using this
  · have e : (ni - 1) % 2 ^ 128 = ni - 1 := Nat.mod_eq_of_lt hlt'
    rw [h5]
    have : ∀ (l : List Amount) (f : ℕ → Amount → RecordOpening), (∀ i x, (f i x).amount = x) →
        (l.mapIdx f).map (fun r => r.amount.val) = l.map Fin.val := by
      intro l f hf
      apply List.ext_getElem <;> simp [hf]
    rw [this _ _ (fun _ _ => rfl)]
    simpa [Fin.ofNat] using e
  · intro r hr
    rw [h5, List.mem_mapIdx] at hr
    obtain ⟨i, h, rfl⟩ := hr
    rfl
  · intro nd cr b rng
    obtain ⟨n, memos, sig, g1, g2⟩ := h6 nd cr b rng 1234 [] (by decide) (by decide) (by decide)
    refine ⟨n, memos, sig, g1, by rw [g2.pays]; rfl, ?_, ?_, ?_⟩
    · have := congrArg List.length h4
      rw [List.length_map] at this
      rw [g2.nullifiers, List.length_map, this, hu]
    · rw [g2.outputs, h5]
      simp
      omega
    · intro now hn
      have hv := g2.valid now hn
      rwa [(TransferNote.verify_ok.1 hv).1] at hv

theorem C97_mint (complete : SnarkComplete) {d : Fin 256} {pk : MintProvingKey} {vk : MintVerifyingKey}
    (keys : mintPreprocess d = .ok (pk, vk)) {seed fee_blind mint_blind : F} {minter receiver : UserKeyPair}
    {viewer : ViewerKeyPair} (native : newDomestic seed MintBuilder.description ≠ nativeCode)
    (dummy : newDomestic seed MintBuilder.description ≠ dummyCode) :
    ∃ m, Bench.builderMint seed fee_blind mint_blind minter receiver viewer d = .ok m ∧ ∀ chg_blind rng,
      ∃ n sk chg, m.buildMintNote chg_blind rng pk = .ok (n, sk, chg) ∧ n.aux_info.fee = 4 ∧ chg.amount.val = 6 ∧
        n.mint_amount = 35 ∧ n.verify vk n.aux_info.merkle_root = .ok () := by
  obtain ⟨m, h1, h2, h3, h4, h5⟩ := C80_mint complete keys (seed := seed) (fee_blind := fee_blind) (mint_blind := mint_blind)
    (input_amount := 10) (fee := 4) (mint_amount := 35) (minter := minter) (receiver := receiver) (viewer := viewer) native
    dummy (by decide) (by decide)
  refine ⟨m, h1, fun chg_blind rng => ?_⟩
  obtain ⟨n, sk, chg, g1, g2⟩ := h5 chg_blind rng
  refine ⟨n, sk, chg, g1, by rw [g2.pays, h2], ?_, by rw [g2.amount, h4], ?_⟩
  · have := g2.change
    rw [h2, h3] at this
    have e1 : (4 : Amount).val = 4 := rfl
    have e2 : (10 : Amount).val = 10 := rfl
    simp only [e1, e2] at this
    omega
  · have hv := g2.valid
    rwa [(MintNote.verify_ok.1 hv).1] at hv

theorem C97_freeze (complete : SnarkComplete) {ni : ℕ} {d : Fin 256} {pk : FreezeProvingKey} {vk : FreezeVerifyingKey}
    {draws : ℕ → FreezeBuilder.InputSample} {fee_blind : F} {k : UserKeyPair} {freezer : Fr}
    (keys : freezePreprocess ni d = .ok (pk, vk)) (hi : 2 ≤ ni) (fits : ni ≤ 3 ^ d.val) (small : ni < 2 ^ 64)
    (hk : smulFr freezer E.gen ≠ 0) (owners : ∀ i, (draws i).owner.pubKey.address ≠ 0) :
    ∃ f, Bench.builderFreeze draws fee_blind k (List.replicate (ni - 1) (FreezerKeyPair.generate freezer)) ni d = .ok f ∧
      f.inputs.map (fun i => i.ro.amount.val) = List.replicate (ni - 1) 15 ∧
      (∀ i ∈ f.inputs, i.ro.freeze_flag = .unfrozen) ∧
      ((nullifierOf f.fee_input.toTransferInput :: f.inputs.map freezerNullifierOf).Nodup → ∀ chg_blind rng,
        ∃ n sk chg outs, f.buildFreezeNote chg_blind rng pk = .ok (n, sk, chg, outs) ∧ n.aux_info.fee = 5 ∧
          outs.map (fun r => r.amount.val) = List.replicate (ni - 1) 15 ∧ (∀ o ∈ outs, o.freeze_flag = .frozen) ∧
          n.output_commitments = (chg :: outs).map RecordOpening.commitment ∧
          n.verify vk n.aux_info.merkle_root = .ok ()) := by
  obtain ⟨n, rfl⟩ : ∃ n, ni = n + 1 := ⟨ni - 1, by omega⟩
  rw [Nat.add_sub_cancel]
  have len : (List.replicate n freezer).length = n := List.length_replicate
  obtain ⟨f0, f, h1, h2, h3, -, h5, h6, h7⟩ := C80_freeze complete (pk := pk) (vk := vk) (draws := draws)
    (fee_blind := fee_blind) (amounts := List.replicate n 15) (fee_in := 10) (fee := 5) (k := k)
    (freezers := List.replicate n freezer) (d := d) (by rw [len]; exact keys) (by simp)
    (by intro h; have := congrArg List.length h; simp at this; omega) (by rw [len]; exact fits) (by rw [len]; exact small)
    (fun s hs => by rw [List.eq_of_mem_replicate hs]; exact hk) owners (by decide) (fun _ => false)
  have hf : ∀ l (g : FreezeBuilder), FreezeBuilder.freezeSome (fun _ => false) g l = .ok g := by
    intro l
    induction l with
    | nil => intro g; rfl
    | cons i l ih => intro g; exact ih g
  obtain rfl : f0 = f := Except.ok.inj ((hf _ f0).symm.trans h2)
  have am : f0.inputs.map (fun i => i.ro.amount.val) = List.replicate n 15 := by
    have := congrArg (List.map Fin.val) h3
    simpa [List.map_map, Function.comp_def] using this
  have fl : ∀ i ∈ f0.inputs, i.ro.freeze_flag = .unfrozen := by
    intro i hi
    obtain ⟨j, hj⟩ := List.mem_iff_getElem?.1 hi
    exact h5 j i hj
  refine ⟨f0, ?_, am, fl, ?_⟩
  · unfold Bench.builderFreeze
    rw [List.map_replicate] at h1
    have e1 : 1 ≤ n + 1 := by omega
    simp only [ensure, e1, decide_true, if_true, bind, Except.bind, Nat.add_sub_cancel]
    exact h1
  · intro nd chg_blind rng
    obtain ⟨n', sk, chg, outs, g1, g2⟩ := h7 nd chg_blind rng
    refine ⟨n', sk, chg, outs, g1, by rw [g2.pays, h6], ?_, ?_, g2.outputs, ?_⟩
    · rw [g2.flipped, ← am]
      apply List.ext_getElem <;> simp
    · intro o ho
      rw [g2.flipped, List.mem_mapIdx] at ho
      obtain ⟨j, hj, rfl⟩ := ho
      simp only [fl _ (List.getElem_mem hj)]
      rfl
    · have hv := g2.valid
      rwa [(FreezeNote.verify_ok.1 hv).1] at hv

/-- The batch of the benchmark is accepted. -/
theorem C97_batch (batch : SnarkBatch) {t : TransferNote} {m : MintNote} {f : FreezeNote} {tk : TransferVerifyingKey}
    {mk : MintVerifyingKey} {fk : FreezeVerifyingKey} {time : U64}
    (ht : t.verify tk t.aux_info.merkle_root time = .ok ()) (hm : m.verify mk m.aux_info.merkle_root = .ok ())
    (hf : f.verify fk f.aux_info.merkle_root = .ok ()) {k : ℕ} (hk : 1 ≤ k) :
    (Bench.batchNotes k t m f).length = 3 * k ∧
    txnBatchVerify (Bench.batchNotes k t m f) (Bench.batchRoots k t m f) time (Bench.batchKeys k tk mk fk) = .ok () := by
  have len : (Bench.batchNotes k t m f).length = 3 * k := by
    simp [Bench.batchNotes]; omega
  refine ⟨len, (C21_sound batch (by intro h; rw [h] at len; simp at len; omega)).2 ⟨?_, ?_, ?_⟩⟩
  · simp [Bench.batchNotes, Bench.batchRoots]
  · simp [Bench.batchNotes, Bench.batchKeys]
  · intro j x root vk h1 h2 h3
    have all : ∀ y ∈ (Bench.batchNotes k t m f).zip ((Bench.batchRoots k t m f).zip (Bench.batchKeys k tk mk fk)),
        VerifiesAlone time y.1 y.2.1 y.2.2 := by
      intro y hy
      unfold Bench.batchNotes Bench.batchRoots Bench.batchKeys at hy
      rw [List.zip_append (by simp), List.zip_append (by simp), List.zip_append (by simp), List.zip_append (by simp)] at hy
      simp only [List.mem_append] at hy
      have rep : ∀ {α β γ} (x : α) (r : β) (v : γ) (z : α × β × γ),
          z ∈ (List.replicate k x).zip ((List.replicate k r).zip (List.replicate k v)) → z = (x, r, v) := by
        intro α β γ x r v z hz
        rw [List.zip_replicate', List.zip_replicate'] at hz
        exact List.eq_of_mem_replicate hz
      rcases hy with (hy | hy) | hy
      · rw [rep _ _ _ _ hy]; exact ht
      · rw [rep _ _ _ _ hy]; exact hm
      · rw [rep _ _ _ _ hy]; exact hf
    have hz : (x, root, vk) ∈ (Bench.batchNotes k t m f).zip ((Bench.batchRoots k t m f).zip (Bench.batchKeys k tk mk fk)) := by
      apply List.mem_iff_getElem?.2 ⟨j, ?_⟩
      rw [List.getElem?_zip_eq_some, List.getElem?_zip_eq_some]
      exact ⟨h1, h2, h3⟩
    exact (checked_alone.1 (all _ hz)).1

/-- From two copies on no ledger takes it as a block. -/
theorem C97_not_block (batch : SnarkBatch) (t : TransferNote) (m : MintNote) (f : FreezeNote) {k : ℕ} (hk : 2 ≤ k)
    (d : Fin 256) (s : LedgerState) (time : U64) :
    validateTxnsBatch d s (Bench.batchNotes k t m f) time ≠ .ok () := by
  intro h
  have ne : Bench.batchNotes k t m f ≠ [] := by
    intro e
    have := congrArg List.length e
    simp [Bench.batchNotes] at this
    omega
  have nd := ((C51_any batch ne).1 h).2.1
  obtain ⟨k, rfl⟩ : ∃ j, k = j + 2 := ⟨k - 2, by omega⟩
  rw [Bench.batchNotes, List.flatMap_append, List.flatMap_append, List.append_assoc] at nd
  have := (List.nodup_append.1 (List.nodup_append.1 nd).2.1).1
  rw [show List.replicate (k + 2) (TransactionNote.mint m) = .mint m :: .mint m :: List.replicate k (.mint m) from rfl] at this
  simp [TransactionNote.nullifiers] at this

end Cap

namespace Cap.Examples

open Toy Spec

def transfer97 : Res TransferBuilder :=
  Bench.builderTransfer [alice, bob, alice] 3 3 2 asset80 (fun i => ((i : ℕ) : ZMod p)) (fun _ => bob.pubKey)
    (fun i => ((i + 5 : ℕ) : ZMod p)) (fun _ => [1, 2, 3, 4, 5, 6, 7, 8])

theorem transfer97_ok : isOk transfer97 = true := by decide +kernel

theorem transfer97_distinct : ((okVal transfer97 transfer97_ok).inputs.map nullifierOf).Nodup := by decide +kernel

def freeze97 : Res FreezeBuilder :=
  Bench.builderFreeze drawnFreeze80.inputs (76 : ZMod p) alice
    (List.replicate 2 (FreezerKeyPair.generate (7 : ZMod r))) 3 2

theorem freeze97_ok : isOk freeze97 = true := by decide +kernel

theorem freeze97_distinct : (nullifierOf (okVal freeze97 freeze97_ok).fee_input.toTransferInput ::
    (okVal freeze97 freeze97_ok).inputs.map freezerNullifierOf).Nodup := by decide +kernel

/-- a transfer of two inputs besides the fee, a mint and a note that freezes two records, as the benchmarks make them; four
copies of each verified as a batch, which no ledger accepts -/
example : ∃ (t : TransferNote) (m : MintNote) (f : FreezeNote),
    t.inputs_nullifiers.length = 3 ∧ t.aux_info.fee.val = 1 ∧ m.mint_amount = 35 ∧ f.aux_info.fee = 5 ∧
    (Bench.batchNotes 4 t m f).length = 12 ∧
    txnBatchVerify (Bench.batchNotes 4 t m f) (Bench.batchRoots 4 t m f) 1234
      (Bench.batchKeys 4 ⟨.transfer 3 3 2, 3, 3, 2⟩ ⟨.mint 2, 2⟩ ⟨.freeze 3 2, 2, 3⟩) = .ok () ∧
    ∀ s time, validateTxnsBatch 2 s (Bench.batchNotes 4 t m f) time ≠ .ok () := by
  obtain ⟨t, h1, -, -, -, h5⟩ := C97_transfer Toy.complete (ni := 3) (no := 3) (d := 2) (keys := rfl)
    (users := [alice, bob, alice]) (in_blinds := fun i => ((i : ℕ) : ZMod p)) (receivers := fun _ => bob.pubKey)
    (out_blinds := fun i => ((i + 5 : ℕ) : ZMod p)) (attrs := fun _ => [1, 2, 3, 4, 5, 6, 7, 8]) (a := asset80)
    (okVal_eq _ _) viewer_real rfl (by decide) (by decide) (by decide) (by decide) (fun _ => rfl)
  have et : okVal transfer97 transfer97_ok = t := Except.ok.inj ((okVal_eq transfer97 transfer97_ok).symm.trans h1)
  obtain ⟨tn, -, -, -, t2, t3, -, t4⟩ := h5 (by rw [← et]; exact transfer97_distinct) (toyReceives _) .debug
    ⟨(61 : ZMod p), rng, fun i => i⟩
  obtain ⟨m, -, m1⟩ := C97_mint Toy.complete (d := 2) (keys := rfl) (seed := (72 : ZMod p)) (fee_blind := (73 : ZMod p))
    (mint_blind := (74 : ZMod p)) (minter := alice) (receiver := bob) (viewer := viewer) (by decide +kernel)
    (by decide +kernel)
  obtain ⟨mn, -, -, -, -, -, m2, m3⟩ := m1 (75 : ZMod p) rng
  obtain ⟨f, f1, -, -, f2⟩ := C97_freeze Toy.complete (ni := 3) (d := 2) (draws := drawnFreeze80.inputs)
    (fee_blind := (76 : ZMod p)) (k := alice) (freezer := (7 : ZMod r)) (keys := rfl) (by decide) (by decide) (by decide)
    freezers80.1 (fun i => by
      show ((if i = 0 then alice else bob : UserKeyPair).pubKey).address ≠ 0
      split
      · decide +kernel
      · decide +kernel)
  have ef : okVal freeze97 freeze97_ok = f := Except.ok.inj ((okVal_eq freeze97 freeze97_ok).symm.trans f1)
  obtain ⟨fn, -, -, -, -, f4, -, -, -, f5⟩ := f2 (by rw [← ef]; exact freeze97_distinct) (77 : ZMod p)
    ⟨fun i => ((110 + i : ℕ) : ZMod p), (78 : ZMod r), 0⟩
  have big := C97_batch Toy.batch (t4 1234 (by decide)) m3 f5 (k := 4) (by decide)
  exact ⟨tn, mn, fn, t3, t2, m2, f4, big.1, big.2, fun s time => C97_not_block Toy.batch tn mn fn (by decide) 2 s time⟩

/-- one output is too few -/
example : Bench.builderTransfer [alice, bob] 2 1 2 asset80 (fun i => ((i : ℕ) : ZMod p)) (fun _ => bob.pubKey)
    (fun i => ((i + 5 : ℕ) : ZMod p)) (fun _ => [1, 2, 3, 4, 5, 6, 7, 8]) = .error .panic :=
  C97_too_small.1 (.inr (by decide))

end Cap.Examples
