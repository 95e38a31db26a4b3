/-
C21: batch verification accepts exactly when each note verifies.

status: partial
note: C21_partial: for a non-empty batch in which every note comes with a key of its own kind, batch verification succeeds and all mint notes pass the domestic check, if and only if the lists have equal lengths and every note verifies on its own. FALSE as stated: C21_domestic_false: txn_batch_verify leaves out the check that the minted code is the domestic code of the internal code, so for every instantiation and every asset code (also the native one) it accepts a mint of that code that MintNote::verify refuses; C21_kind_false: it does not compare the kind of a note with the kind of its key, so for every instantiation it accepts a freeze note under a transfer key, with a fee of 2^64 - 1 that no record pays. C21_sound: what batch acceptance means in any case. C21_lengths: lists of different lengths are refused whatever they contain. The empty batch is left to the proof system (jf-plonk refuses it).
-/
import Verif.Lemmas.ForgeMintFreeze
import Verif.Props.C17
import Verif.Props.C18
import Verif.Props.C19

namespace Cap

open Spec

variable [E : CapEnv] [S : CapExt]

/-- The note verifies on its own under a key of its own kind. -/
def VerifiesAlone (time : U64) : TransactionNote → F → TransactionVerifyingKey → Prop
  | .transfer n, root, .transfer vk => n.verify vk root time = .ok ()
  | .mint n, root, .mint vk => n.verify vk root = .ok ()
  | .freeze n, root, .freeze vk => n.verify vk root = .ok ()
  | _, _, _ => False

/-- The key is of the kind of the note. -/
def SameKind : TransactionNote → TransactionVerifyingKey → Prop
  | .transfer _, .transfer _ => True
  | .mint _, .mint _ => True
  | .freeze _, .freeze _ => True
  | _, _ => False

/-- The minted code is the domestic code of the note's internal code. -/
def Domestic : TransactionNote → Prop
  | .mint n => n.mint_asset_def.code = domesticFromInternal n.mint_internal_asset_code
  | _ => True

/-! ### Single notes -/

/-- what a batch checks about one note: its root, its expiry, its proof -/
def CheckedInBatch (time : U64) (t : TransactionNote) (root : F) (vk : TransactionVerifyingKey) : Prop :=
  ∃ x, t.publicScalars root time = .ok x ∧ S.verify vk.keyRef x t.validityProof t.extMsg = true

theorem checked_alone {time : U64} {t : TransactionNote} {root : F} {vk : TransactionVerifyingKey} :
    VerifiesAlone time t root vk ↔ CheckedInBatch time t root vk ∧ SameKind t vk ∧ Domestic t := by
  unfold CheckedInBatch
  cases t with
  | transfer n =>
    cases vk with
    | transfer k =>
      simp only [VerifiesAlone, TransferNote.verify_ok, TransactionNote.publicScalars, bind_ok_iff, Except.ok.injEq,
        TransferNote.checkInstance_ok, SameKind, Domestic, and_true, TransactionVerifyingKey.keyRef,
        TransactionNote.validityProof, TransactionNote.extMsg, TransactionNote.txnMemoVerKey]
      constructor
      · rintro ⟨h1, h2, h3⟩; exact ⟨_, ⟨_, ⟨h1, h2, rfl⟩, rfl⟩, h3⟩
      · rintro ⟨_, ⟨_, ⟨h1, h2, rfl⟩, rfl⟩, h3⟩; exact ⟨h1, h2, h3⟩
    | mint k => simp [VerifiesAlone, SameKind]
    | freeze k => simp [VerifiesAlone, SameKind]
  | mint n =>
    cases vk with
    | mint k =>
      simp only [VerifiesAlone, MintNote.verify_ok, TransactionNote.publicScalars, bind_ok_iff, Except.ok.injEq,
        MintNote.checkInstance_ok, SameKind, Domestic, true_and, TransactionVerifyingKey.keyRef,
        TransactionNote.validityProof, TransactionNote.extMsg, TransactionNote.txnMemoVerKey, List.append_nil]
      constructor
      · rintro ⟨h1, h2, h3⟩; exact ⟨⟨_, ⟨_, ⟨h1, rfl⟩, rfl⟩, h3⟩, h2⟩
      · rintro ⟨⟨_, ⟨_, ⟨h1, rfl⟩, rfl⟩, h3⟩, h2⟩; exact ⟨h1, h2, h3⟩
    | transfer k => simp [VerifiesAlone, SameKind]
    | freeze k => simp [VerifiesAlone, SameKind]
  | freeze n =>
    cases vk with
    | freeze k =>
      simp only [VerifiesAlone, FreezeNote.verify_ok, TransactionNote.publicScalars, bind_ok_iff, Except.ok.injEq,
        FreezeNote.checkInstance_ok, SameKind, Domestic, and_true, TransactionVerifyingKey.keyRef,
        TransactionNote.validityProof, TransactionNote.extMsg, TransactionNote.txnMemoVerKey, List.append_nil]
      constructor
      · rintro ⟨h1, h3⟩; exact ⟨_, ⟨_, ⟨h1, rfl⟩, rfl⟩, h3⟩
      · rintro ⟨_, ⟨_, ⟨h1, rfl⟩, rfl⟩, h3⟩; exact ⟨h1, h3⟩
    | mint k => simp [VerifiesAlone, SameKind]
    | transfer k => simp [VerifiesAlone, SameKind]

/-! ### Batches -/

theorem batch_loop {time : U64} : ∀ {txns : List TransactionNote} {roots : List F}
    {keys : List TransactionVerifyingKey}, txns.length = roots.length → txns.length = keys.length →
    ((∃ xs, batchPublicInputs time txns roots = .ok xs ∧
        ∀ y ∈ batchItems txns xs keys, S.verify y.1 y.2.1 y.2.2.1 y.2.2.2 = true) ↔
      ∀ (k : ℕ) t root vk, txns[k]? = some t → roots[k]? = some root → keys[k]? = some vk →
        CheckedInBatch time t root vk)
  | [], _, _, _, _ => by simp [batchPublicInputs, batchItems]
  | t :: ts, r :: rs, v :: vs, h1, h2 => by
    have ih := batch_loop (time := time) (txns := ts) (roots := rs) (keys := vs) (by simpa using h1) (by simpa using h2)
    simp only [batchPublicInputs, bind_ok_iff, Except.ok.injEq]
    constructor
    · rintro ⟨_, ⟨x, hx, xs, hxs, rfl⟩, hall⟩ k t' r' v' ht hr hv
      simp only [batchItems, List.mem_cons, forall_eq_or_imp] at hall
      cases k with
      | zero =>
        simp only [List.getElem?_cons_zero, Option.some.injEq] at ht hr hv
        subst ht hr hv
        exact ⟨x, hx, hall.1⟩
      | succ k =>
        simp only [List.getElem?_cons_succ] at ht hr hv
        exact ih.1 ⟨xs, hxs, hall.2⟩ k t' r' v' ht hr hv
    · intro h
      obtain ⟨xs, hxs, hall⟩ := ih.2 fun k t' r' v' ht hr hv => h (k + 1) t' r' v' (by simpa using ht)
        (by simpa using hr) (by simpa using hv)
      obtain ⟨x, hx, hv⟩ := h 0 t r v rfl rfl rfl
      refine ⟨_, ⟨x, hx, xs, hxs, rfl⟩, ?_⟩
      simp only [batchItems, List.mem_cons, forall_eq_or_imp]
      exact ⟨hv, hall⟩
  | _ :: _, [], _, h, _ => by simp at h
  | _ :: _, _ :: _, [], _, h => by simp at h

/-- the loop returns one vector per note -/
theorem batchPublicInputs_cons {time : U64} {t : TransactionNote} {ts : List TransactionNote} {r : F} {rs : List F}
    {xs : List (List F)} (h : batchPublicInputs time (t :: ts) (r :: rs) = .ok xs) : xs ≠ [] := by
  simp only [batchPublicInputs, bind_ok_iff, Except.ok.injEq] at h
  obtain ⟨x, -, ys, -, rfl⟩ := h
  simp

/-- **What a batch checks.**  For a non-empty batch: the lists have equal lengths, and each note has the given root, has
not expired, and its proof is valid for its own public input under the given key (of whatever kind). -/
theorem C21_sound (batch : SnarkBatch) {txns : List TransactionNote} {roots : List F} {time : U64}
    {keys : List TransactionVerifyingKey} (ne : txns ≠ []) :
    txnBatchVerify txns roots time keys = .ok () ↔
      txns.length = roots.length ∧ txns.length = keys.length ∧
      ∀ (k : ℕ) t root vk, txns[k]? = some t → roots[k]? = some root → keys[k]? = some vk →
        CheckedInBatch time t root vk := by
  unfold txnBatchVerify
  by_cases hl : txns.length = roots.length ∧ txns.length = keys.length
  · obtain ⟨h1, h2⟩ := hl
    rw [if_neg (by simp [← h1, ← h2]), bind_ok_iff]
    simp only [ensure_ok_iff]
    rw [← batch_loop h1 h2]
    simp only [h1, true_and]
    constructor
    · rintro ⟨xs, hxs, hb⟩
      refine ⟨h1 ▸ h2, xs, hxs, (batch _ ?_).1 hb⟩
      obtain ⟨t, ts, rfl⟩ := List.exists_cons_of_ne_nil ne
      obtain ⟨r, rs, rfl⟩ := List.exists_cons_of_ne_nil (l := roots) (by rintro rfl; simp at h1)
      obtain ⟨v, vs, rfl⟩ := List.exists_cons_of_ne_nil (l := keys) (by rintro rfl; simp at h2)
      obtain ⟨x, xs, rfl⟩ := List.exists_cons_of_ne_nil (batchPublicInputs_cons hxs)
      simp [batchItems]
    · rintro ⟨-, xs, hxs, hall⟩
      refine ⟨xs, hxs, (batch _ ?_).2 hall⟩
      obtain ⟨t, ts, rfl⟩ := List.exists_cons_of_ne_nil ne
      obtain ⟨r, rs, rfl⟩ := List.exists_cons_of_ne_nil (l := roots) (by rintro rfl; simp at h1)
      obtain ⟨v, vs, rfl⟩ := List.exists_cons_of_ne_nil (l := keys) (by rintro rfl; simp at h2)
      obtain ⟨x, xs, rfl⟩ := List.exists_cons_of_ne_nil (batchPublicInputs_cons hxs)
      simp [batchItems]
  · rw [if_pos (by tauto)]
    simp only [reduceCtorEq, false_iff]
    rintro ⟨h1, h2, -⟩
    exact hl ⟨h1, h2⟩

/-- **Lengths.**  Lists of different lengths are refused, whatever they contain and whatever the proof system. -/
theorem C21_lengths {txns : List TransactionNote} {roots : List F} {time : U64} {keys : List TransactionVerifyingKey}
    (h : txns.length ≠ roots.length ∨ txns.length ≠ keys.length) :
    txnBatchVerify txns roots time keys = .error .invalidParameter := by
  unfold txnBatchVerify
  rw [if_pos (by tauto)]

/-- **What holds.**  A non-empty batch in which the keys are of the notes' kinds is accepted and contains only mints of
domestic codes, if and only if the lists have equal lengths and each note verifies on its own. -/
theorem C21_partial (batch : SnarkBatch) {txns : List TransactionNote} {roots : List F} {time : U64}
    {keys : List TransactionVerifyingKey} (ne : txns ≠ [])
    (kinds : ∀ (k : ℕ) t vk, txns[k]? = some t → keys[k]? = some vk → SameKind t vk) :
    (txnBatchVerify txns roots time keys = .ok () ∧ ∀ t ∈ txns, Domestic t) ↔
      txns.length = roots.length ∧ txns.length = keys.length ∧
      ∀ (k : ℕ) t root vk, txns[k]? = some t → roots[k]? = some root → keys[k]? = some vk →
        VerifiesAlone time t root vk := by
  rw [C21_sound batch ne]
  constructor
  · rintro ⟨⟨h1, h2, h3⟩, h4⟩
    refine ⟨h1, h2, fun k t root vk ht hr hv => checked_alone.2 ⟨h3 k t root vk ht hr hv, kinds k t vk ht hv, h4 t ?_⟩⟩
    exact List.mem_of_getElem? ht
  · rintro ⟨h1, h2, h3⟩
    refine ⟨⟨h1, h2, fun k t root vk ht hr hv => (checked_alone.1 (h3 k t root vk ht hr hv)).1⟩, fun t ht => ?_⟩
    obtain ⟨k, hk, rfl⟩ := List.mem_iff_getElem.1 ht
    exact (checked_alone.1 (h3 k _ _ _ (List.getElem?_eq_getElem hk)
      (List.getElem?_eq_getElem (h1 ▸ hk)) (List.getElem?_eq_getElem (h2 ▸ hk)))).2.2

/-! ### Negations -/

/-- **Negation (1): the domestic check is left out.**  For every asset definition without viewer, every amount below
`2^127` and every seed whose code is another one, whoever owns a native record can mint this amount of that asset in a
note that batch verification accepts and `MintNote::verify` refuses. -/
theorem C21_domestic_false (complete : SnarkComplete) (batch : SnarkBatch) {d : Fin 256} {pk : MintProvingKey}
    {vk : MintVerifyingKey} (keys : mintPreprocess d = .ok (pk, vk)) {fee_ro mint_ro : RecordOpening} {k : UserKeyPair}
    (fee_asset : fee_ro.asset_def = AssetDefinition.native) (fee_unfrozen : fee_ro.freeze_flag = .unfrozen)
    (fee_owner : fee_ro.pub_key.address = k.address) (mint_unfrozen : mint_ro.freeze_flag = .unfrozen)
    (mint_small : mint_ro.amount.val < 2 ^ 127) (no_viewer : mint_ro.asset_def.policy.viewer_pk = 0) {seed digest : F}
    (foreign : mint_ro.asset_def.code ≠ domesticFromInternal (internalCode seed digest)) :
    ∃ n w, OpensMint d.val n w ∧ w.mint_ro = mint_ro.toV ∧
      (∀ t, txnBatchVerify [.mint n] [n.aux_info.merkle_root] t [.mint vk] = .ok ()) ∧
      n.verify vk n.aux_info.merkle_root ≠ .ok () := by
  obtain ⟨π, ho, -, hv⟩ := mint_forge complete keys (fee_ro := fee_ro) (mint_ro := mint_ro) (k := k) (fee := 0)
    (acc := ⟨0, edge d.val⟩) (seed := seed) (digest := digest) fee_asset fee_unfrozen fee_owner
    (Forgery.edge_length _) mint_unfrozen mint_small no_viewer
  refine ⟨_, _, ho, rfl, fun t => ?_, fun h => foreign (MintNote.verify_ok.1 h).2.1⟩
  refine (C21_sound batch (by simp)).2 ⟨rfl, rfl, fun i t' root v ht hr hk => ?_⟩
  cases i with
  | zero =>
    simp only [List.getElem?_cons_zero, Option.some.injEq] at ht hr hk
    subst ht hr hk
    refine ⟨_, bind_ok_iff.2 ⟨_, MintNote.checkInstance_ok.2 ⟨rfl, rfl⟩, rfl⟩, ?_⟩
    simpa [TransactionVerifyingKey.keyRef, TransactionNote.validityProof, TransactionNote.extMsg,
      TransactionNote.txnMemoVerKey, mintForgeNote] using hv
  | succ i => simp at ht

/-- **Negation (2): kinds are not compared.**  For every depth there is a freeze note that batch verification accepts
under a transfer key, although it pays a fee of `2^64 - 1`: the number is the expiry time of a transfer that pays
nothing. -/
theorem C21_kind_false (complete : SnarkComplete) (batch : SnarkBatch) {d : Fin 256} {pk : TransferProvingKey}
    {vk : TransferVerifyingKey} (keys : transferPreprocess 2 2 d = .ok (pk, vk)) :
    ∃ n : FreezeNote, n.aux_info.fee.val = 2 ^ 64 - 1 ∧ n.input_nullifiers.length = n.output_commitments.length ∧
      ∀ t, txnBatchVerify [.freeze n] [n.aux_info.merkle_root] t [.transfer vk] = .ok () := by
  let v : RecordV := nativeOf 0
  let f : Forgery :=
    { r0 := v, r1 := v, sk0 := frToFq 1, sk1 := frToFq 1, acc0 := ⟨0, edge d.val⟩,
      acc1 := ⟨0, edge d.val⟩, cred1 := selfCred ((Fin.last _ : U64).val : F), o0 := v, o1 := v,
      code := nativeCode, policy := AssetPolicy.default.toV, root := spendRoot v ⟨0, edge d.val⟩, fee := 0,
      valid_until := Fin.last _ }
  have hok : f.Ok d.val :=
    { r0_unfrozen := rfl, r0_code := rfl, r0_policy := rfl, r0_spend := nativeOf_spend _, r0_root := rfl
      r1_unfrozen := rfl, r1_kind := Or.inl ⟨native_ne_dummy, rfl, rfl⟩
      r1_spend := nativeOf_spend _, path0 := Forgery.edge_length _, path1 := Forgery.edge_length _
      attrs := (Forgery.selfCred_ok _).1, expiry := (Forgery.selfCred_ok _).2, sig := Or.inr (selfCred_valid _)
      o0_unfrozen := rfl, o0_code := rfl, o0_policy := rfl, o0_range := by simp [f, v, nativeOf]
      o1_unfrozen := rfl, o1_code := rfl, o1_policy := rfl, o1_range := by simp [f, v, nativeOf]
      no_viewer := Or.inl ((isDummyViewingPk_host AssetPolicy.default).2 rfl)
      map := by
        show (RevealMap.toScalar _).val < _
        rw [RevealMap.toScalar_val]; exact RevealMap.toNat_lt _
      balance := ⟨fun h => absurd rfl h, fun _ => by
        show (0 : F) + 0 = 0 + 0 + Amount.toF 0
        rw [Amount.toF_zero, add_zero, add_zero]⟩ }
  obtain ⟨π, -, hv⟩ := Forgery.accepted complete keys f hok
  have hv' := (TransferNote.verify_ok.1 (hv 0 (Fin.zero_le _))).2.2
  let fake : FreezeNote :=
    ⟨[0, spendNullifier v ⟨0, edge d.val⟩ (frToFq 1) .user, spendNullifier v ⟨0, edge d.val⟩ (frToFq 1) .user,
        v.commitment, v.commitment, ptX 0, ptY 0, 0, 0, 0, 0, 0], List.replicate 12 0, π,
      ⟨spendRoot v ⟨0, edge d.val⟩, ⟨2 ^ 64 - 1, by norm_num⟩, 0⟩⟩
  have same : fake.pub.toScalars = (f.note π).pub.toScalars := by
    have h1 : Amount.toF ⟨2 ^ 64 - 1, by norm_num⟩ = (((Fin.last _ : U64).val : ℕ) : F) := rfl
    have h0 : Amount.toF 0 = (0 : F) := Amount.toF_zero
    show [_, _, Amount.toF ⟨2 ^ 64 - 1, by norm_num⟩, 0, _, _, _, _, _, _, 0, 0, 0, 0, 0,
      0, 0, 0, 0, 0, 0, 0, 0, 0, 0, 0, 0] = [_, _, (((Fin.last _ : U64).val : ℕ) : F), Amount.toF 0, _, _, _, _, _, _,
      0, 0, 0, 0, 0, 0, 0, 0, 0, 0, 0, 0, 0, 0, 0, 0, 0]
    rw [h1, h0]
    rfl
  refine ⟨fake, rfl, rfl, fun t => ?_⟩
  refine (C21_sound batch (by simp)).2 ⟨rfl, rfl, fun i t' root k' ht hr hk => ?_⟩
  cases i with
  | zero =>
    simp only [List.getElem?_cons_zero, Option.some.injEq] at ht hr hk
    subst ht hr hk
    refine ⟨_, bind_ok_iff.2 ⟨_, FreezeNote.checkInstance_ok.2 ⟨rfl, rfl⟩, rfl⟩, ?_⟩
    rw [same]
    exact hv'
  | succ i => simp at ht

end Cap

namespace Cap.Examples
open Toy Spec

/-- a batch of the three example notes with keys of their kinds -/
example : ∃ (txns : List TransactionNote) (keys : List TransactionVerifyingKey), txns ≠ [] ∧ txns.length = 3 ∧
    (∀ (k : ℕ) t vk, txns[k]? = some t → keys[k]? = some vk → SameKind t vk) ∧
    (∀ t ∈ txns, Domestic t) ∧
    txnBatchVerify txns (txns.map TransactionNote.merkleRoot) 900 keys = .ok () := by
  have kinds : ∀ (k : ℕ) t vk, [TransactionNote.transfer xfrNote, .mint mintNote, .freeze frzNote][k]? = some t →
      [TransactionVerifyingKey.transfer xfrVk, .mint mintVk, .freeze frzVk][k]? = some vk → SameKind t vk := by
    intro k t vk ht hv
    match k with
    | 0 => simp only [List.getElem?_cons_zero, Option.some.injEq] at ht hv; subst ht hv; trivial
    | 1 => simp only [List.getElem?_cons_zero, List.getElem?_cons_succ, Option.some.injEq] at ht hv; subst ht hv; trivial
    | 2 => simp only [List.getElem?_cons_zero, List.getElem?_cons_succ, Option.some.injEq] at ht hv; subst ht hv; trivial
    | k + 3 => simp at ht
  have h := (C21_partial Toy.batch (txns := [.transfer xfrNote, .mint mintNote, .freeze frzNote])
    (roots := [xfrNote.aux_info.merkle_root, mintNote.aux_info.merkle_root, frzNote.aux_info.merkle_root]) (time := 900)
    (keys := [.transfer xfrVk, .mint mintVk, .freeze frzVk]) (by simp) kinds).2
    ⟨rfl, rfl, fun k t root vk ht hr hv => by
      match k with
      | 0 =>
        simp only [List.getElem?_cons_zero, Option.some.injEq] at ht hr hv; subst ht hr hv
        exact xfrNote_verify 900 (by decide)
      | 1 =>
        simp only [List.getElem?_cons_zero, List.getElem?_cons_succ, Option.some.injEq] at ht hr hv; subst ht hr hv
        exact mintNote_verify
      | 2 =>
        simp only [List.getElem?_cons_zero, List.getElem?_cons_succ, Option.some.injEq] at ht hr hv; subst ht hr hv
        exact frzNote_verify
      | k + 3 => simp at ht⟩
  exact ⟨_, _, by simp, rfl, kinds, h.2, h.1⟩

/-- `C21_domestic_false` has an instance that mints native units: the native code is not the domestic code of seed 0 -/
example : ∃ mint_ro : RecordOpening, mint_ro.asset_def = AssetDefinition.native ∧ mint_ro.freeze_flag = .unfrozen ∧
    mint_ro.amount = 1000 ∧ mint_ro.asset_def.policy.viewer_pk = 0 ∧
    mint_ro.asset_def.code ≠ domesticFromInternal (internalCode (0 : F) 0) :=
  ⟨{ feeRec with amount := 1000 }, rfl, rfl, rfl, rfl, by decide +kernel⟩

/-- `C21_kind_false` in the toy instantiation -/
example : ∃ n : FreezeNote, txnBatchVerify [.freeze n] [n.aux_info.merkle_root] 0 [.transfer natVk] = .ok () := by
  obtain ⟨n, -, -, h⟩ := C21_kind_false Toy.complete Toy.batch natKeys_eq
  exact ⟨n, h 0⟩

/-- lists of different lengths exist -/
example : ([TransactionNote.mint mintNote]).length ≠ ([] : List F).length := by decide

end Cap.Examples
