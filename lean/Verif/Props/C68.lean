/-
C68: a transfer with separate fee information pays the requested fee.

status: partial
note: C68_asset_partial: whatever the build and the amounts, if generate_non_native succeeds and some given input is of an asset with another code than the native one and is not a dummy, the published fee is the requested one, the given inputs and outputs carry the same total, and the fee record is worth the change plus the fee; the change is native, unfrozen, the first output and belongs to the owner of the fee record. C68_published: in general the published fee plus the given outputs is the requested fee plus the given inputs. So the property fails for native records, which the function does not refuse although its documentation excludes them: C68_false shows for every environment, every tree depth and every well-formed payment that whatever native inputs exceed the outputs by is paid as fee beyond the requested amount. C68_refused: with a change that is not exact, fee records that are not native, or a wrong path nothing is generated.
-/
import Verif.Props.C23
import Verif.Props.C24
import Verif.Lemmas.Complete
import Verif.Props.C38
import Verif.Lemmas.Generated

namespace Cap

open Spec

variable [E : CapEnv] [S : CapExt]

theorem generateNonNative_ok {b : Build} {rng : TransferRand} {inputs : List TransferNoteInput}
    {outputs : List RecordOpening} {fee : TxnFeeInfo} {valid_until : U64} {pk : TransferProvingKey} {extra : List Byte}
    {r : TransferNote × Fr} :
    TransferNote.generateNonNative b rng inputs outputs fee valid_until pk extra = .ok r ↔ checkFee fee = .ok () ∧
      TransferNote.generate b rng (fee.fee_input.toTransferInput :: inputs) (fee.fee_chg_ro :: outputs) pk valid_until
        extra = .ok r := by
  unfold TransferNote.generateNonNative
  simp only [bind_ok_iff]
  constructor
  · rintro ⟨⟨⟩, h, h'⟩
    exact ⟨h, h'⟩
  · rintro ⟨h, h'⟩
    exact ⟨(), h, h'⟩

/-- **The fee record.**  A successful call has spent the fee record first, and created the change first: native, unfrozen,
for the owner of the fee record, worth the fee record minus the requested fee. -/
theorem C68_change {b : Build} {rng : TransferRand} {inputs : List TransferNoteInput}
    {outputs : List RecordOpening} {fee : TxnFeeInfo} {valid_until : U64} {pk : TransferProvingKey} {extra : List Byte}
    {n : TransferNote} {sk : Fr}
    (gen : TransferNote.generateNonNative b rng inputs outputs fee valid_until pk extra = .ok (n, sk)) :
    fee.fee_chg_ro.amount.val + fee.fee_amount.val = fee.fee_input.ro.amount.val ∧
    fee.fee_input.ro.asset_def = AssetDefinition.native ∧ fee.fee_chg_ro.asset_def = AssetDefinition.native ∧
    fee.fee_chg_ro.pub_key = fee.fee_input.ro.pub_key ∧ fee.fee_chg_ro.freeze_flag = .unfrozen ∧
    n.inputs_nullifiers.head? = some (nullifierOf fee.fee_input.toTransferInput) ∧
    n.output_commitments = (fee.fee_chg_ro :: outputs).map RecordOpening.commitment := by
  obtain ⟨hc, hg⟩ := generateNonNative_ok.1 gen
  obtain ⟨h1, h2, h3, h4, -⟩ := (C23_check_fee fee).1 hc
  obtain ⟨-, -, -, -, -, -, -, -, -, -, hu, -⟩ := C40_generate hg
  refine ⟨h1, h2, h3, h4, hu _ List.mem_cons_self, ?_, ?_⟩
  · rw [transfer_nullifiers hg]
    rfl
  · obtain ⟨w, pub, h⟩ := TransferNote.generate_ok.1 hg
    obtain ⟨s0, ss, o0', os', hf⟩ := fromWitness_ok.1 h.pub_eq
    obtain ⟨-, k2, -, -⟩ := newUnchecked_ok.1 h.witness
    rw [h.commitments, hf.commitments, k2]

/-- **The published fee**, whatever the asset: it is the requested fee, and what the given inputs carry beyond the
outputs (or lack). -/
theorem C68_published {b : Build} {rng : TransferRand} {inputs : List TransferNoteInput}
    {outputs : List RecordOpening} {fee : TxnFeeInfo} {valid_until : U64} {pk : TransferProvingKey} {extra : List Byte}
    {n : TransferNote} {sk : Fr}
    (gen : TransferNote.generateNonNative b rng inputs outputs fee valid_until pk extra = .ok (n, sk)) :
    n.aux_info.fee.val + total outputs = fee.fee_amount.val + total (inputs.map (·.ro)) := by
  obtain ⟨hc, hg⟩ := generateNonNative_ok.1 gen
  obtain ⟨h1, -⟩ := (C23_check_fee fee).1 hc
  obtain ⟨h2, -⟩ := generated_total hg
  rw [List.map_cons, total_cons, total_cons] at h2
  have : fee.fee_input.toTransferInput.ro = fee.fee_input.ro := rfl
  rw [this] at h2
  omega

/-- **Another asset pays the requested fee.**  Missing for the full property: the given records may be native. -/
theorem C68_asset_partial {b : Build} {rng : TransferRand} {inputs : List TransferNoteInput}
    {outputs : List RecordOpening} {fee : TxnFeeInfo} {valid_until : U64} {pk : TransferProvingKey} {extra : List Byte}
    {n : TransferNote} {sk : Fr}
    (gen : TransferNote.generateNonNative b rng inputs outputs fee valid_until pk extra = .ok (n, sk))
    {i : TransferNoteInput} (hi : i ∈ inputs) (other : i.ro.asset_def.code ≠ nativeCode)
    (real : i.ro.asset_def ≠ AssetDefinition.dummy) :
    n.aux_info.fee = fee.fee_amount ∧ total (inputs.map (·.ro)) = total outputs := by
  have hp := C68_published gen
  obtain ⟨hc, hg⟩ := generateNonNative_ok.1 gen
  obtain ⟨h1, h2, h3, -⟩ := (C23_check_fee fee).1 hc
  obtain ⟨-, -, -, -, -, -, -, -, -, -, -, hbal, -, -, ad, -, hin, hout⟩ := C40_generate hg
  have had : ad = i.ro.asset_def := by
    rcases hin i hi with h | h
    · exact absurd h real
    · exact h.symm
  subst had
  obtain ⟨i0, is, hcons, hb⟩ := hbal
  have hb := hb nativeCode
  have hreal : Spec.real ((fee.fee_input.toTransferInput :: inputs).map (·.ro)) =
      fee.fee_input.ro :: Spec.real (inputs.map (·.ro)) := by
    have : fee.fee_input.toTransferInput.ro = fee.fee_input.ro := rfl
    rw [List.map_cons, this, Spec.real, List.filter_cons, if_pos]
    · rfl
    · rw [h2]
      simpa using nativeDef_ne_dummyDef
  have hi0 : i0.asset_def.code = nativeCode := by
    have : i0 = fee.fee_input.ro := by
      have := (List.cons.inj hcons).1
      exact this.symm
    rw [this, h2]
    rfl
  rw [hreal, hi0, if_pos rfl, totalOf_cons, totalOf_cons, h2, h3,
    if_pos (show AssetDefinition.native.code = nativeCode from rfl),
    if_pos (show AssetDefinition.native.code = nativeCode from rfl),
    totalOf_eq_zero (l := Spec.real _), totalOf_eq_zero (l := outputs)] at hb
  · have hfee : n.aux_info.fee.val = fee.fee_amount.val := by omega
    exact ⟨Fin.ext hfee, by omega⟩
  · intro o ho
    rw [hout o ho]
    exact other
  · intro r hr
    obtain ⟨hr, hd⟩ := List.mem_filter.1 hr
    obtain ⟨j, hj, rfl⟩ := List.mem_map.1 hr
    rcases hin j hj with h | h
    · simp [h] at hd
    · rw [h]
      exact other

/-- **The fee is checked first.**  If the change is not exact, or one of the records is not native, or the change is for
somebody else, or the fee record is not in the tree with the given root, nothing is generated. -/
theorem C68_refused {b : Build} {rng : TransferRand} {inputs : List TransferNoteInput}
    {outputs : List RecordOpening} {fee : TxnFeeInfo} {valid_until : U64} {pk : TransferProvingKey} {extra : List Byte}
    (bad : fee.fee_chg_ro.amount.val + fee.fee_amount.val ≠ fee.fee_input.ro.amount.val ∨
      fee.fee_input.ro.asset_def ≠ AssetDefinition.native ∨ fee.fee_chg_ro.asset_def ≠ AssetDefinition.native ∨
      fee.fee_chg_ro.pub_key ≠ fee.fee_input.ro.pub_key ∨
      merkleRoot (fee.fee_input.acc.uid.val : F) fee.fee_input.ro.commitment fee.fee_input.acc.path ≠
        fee.fee_input.acc.root) (r : TransferNote × Fr) :
    TransferNote.generateNonNative b rng inputs outputs fee valid_until pk extra ≠ .ok r := by
  intro h
  have := (C23_check_fee fee).1 (generateNonNative_ok.1 h).1
  tauto

/-- **Native records are not refused.**  Every well-formed native payment is generated, and published with a fee that is
not the requested one unless inputs and outputs carry the same. -/
theorem C68_native {ni no : ℕ} {d : Fin 256} {valid_until : U64} {inputs : List TransferNoteInput}
    {outputs : List RecordOpening} {fee : TxnFeeInfo} {paid : Amount} {root : F} (checked : checkFee fee = .ok ())
    (h : WellFormed ni no d.val valid_until (fee.fee_input.toTransferInput :: inputs) (fee.fee_chg_ro :: outputs)
      AssetDefinition.native paid root) (window : valid_until.val < 2 ^ 20) (complete : SnarkComplete)
    {pk : TransferProvingKey} {vk : TransferVerifyingKey} (keys : transferPreprocess ni no d = .ok (pk, vk)) (b : Build)
    (rng : TransferRand) (extra : List Byte) :
    ∃ n sk, TransferNote.generateNonNative b rng inputs outputs fee valid_until pk extra = .ok (n, sk) ∧
      (n.aux_info.fee = fee.fee_amount ↔ total (inputs.map (·.ro)) = total outputs) := by
  have hcred : ∀ i ∈ fee.fee_input.toTransferInput :: inputs, i.ro.asset_def.policy.cred_pk = 0 := by
    intro i hi
    obtain ⟨i0, is, hcons, h0⟩ := h.fee_in
    rcases List.mem_cons.1 hi with rfl | hi
    · cases hcons
      rw [h0]
      rfl
    · rcases h.asset_in i hi with h' | h' <;> (rw [h']; rfl)
  obtain ⟨n, sk, w, pub, hg, -⟩ := h.generates
    ⟨window, fun i hi hc => absurd (hcred i hi) hc, Or.inl rfl⟩ complete keys b rng extra
  have gen := generateNonNative_ok.2 ⟨checked, TransferNote.generate_ok.2 ⟨w, pub, hg⟩⟩
  refine ⟨n, sk, gen, ?_⟩
  have := C68_published gen
  rw [Fin.ext_iff]
  omega

/-- a fee of 5 out of a coin of 5 -/
def wholeCoin (k : UserKeyPair) (d : ℕ) : TxnFeeInfo where
  fee_amount := 5
  fee_input := ⟨(onlyCoin k d).ro, (onlyCoin k d).acc, k⟩
  fee_chg_ro := coin k.pubKey 0

/-- **The property fails**, in every environment and for every depth: a fee of 5 is requested, and nothing is spent besides
the fee record, but there is an output of 3, and a fee of 2 is published. -/
theorem C68_false (complete : SnarkComplete) (k : UserKeyPair) {d : Fin 256} {pk : TransferProvingKey}
    {vk : TransferVerifyingKey} (keys : transferPreprocess 1 2 d = .ok (pk, vk)) (b : Build) (rng : TransferRand)
    (extra : List Byte) (valid_until : U64) (window : valid_until.val < 2 ^ 20) :
    (wholeCoin k d.val).fee_amount = 5 ∧
    ∃ n sk, TransferNote.generateNonNative b rng [] [coin k.pubKey 3] (wholeCoin k d.val) valid_until pk extra =
      .ok (n, sk) ∧ n.aux_info.fee = 2 := by
  refine ⟨rfl, ?_⟩
  have hw := onlyCoin_wellFormed k d.val valid_until
  have hm := (hw.member _ List.mem_cons_self nativeDef_ne_dummyDef)
  have hin : (wholeCoin k d.val).fee_input.toTransferInput = onlyCoin k d.val := rfl
  have hc : checkFee (wholeCoin k d.val) = .ok () := by
    rw [C23_check_fee]
    exact ⟨rfl, rfl, rfl, rfl, hm.2⟩
  have hw2 : WellFormed 1 2 d.val valid_until [onlyCoin k d.val] [coin k.pubKey 0, coin k.pubKey 3]
      AssetDefinition.native 2 (onlyCoin k d.val).acc.root :=
    { hw with
      num_out := rfl
      fee_out := ⟨_, _, rfl, rfl⟩
      asset_out := by
        intro o ho
        obtain rfl := List.mem_singleton.1 ho
        rfl
      unfrozen_out := by
        intro o ho
        simp only [List.mem_cons, List.not_mem_nil, or_false] at ho
        rcases ho with rfl | rfl <;> rfl
      balanced := (coins_balanced k.pubKey (a := 5) (as := []) (bs := [0, 3]) (fee := 2)).2 (by decide) }
  obtain ⟨n, sk, gen, -⟩ := C68_native (fee := wholeCoin k d.val) (inputs := []) (outputs := [coin k.pubKey 3]) hc hw2
    window complete keys b rng extra
  refine ⟨n, sk, gen, ?_⟩
  have := C68_published gen
  rw [show total [coin k.pubKey 3] = 3 from rfl, show total (([] : List TransferNoteInput).map (·.ro)) = 0 from rfl,
    show (wholeCoin k d.val).fee_amount.val = 5 from rfl] at this
  apply Fin.ext
  show _ = 2
  omega

end Cap

namespace Cap.Examples

open Toy Spec

/-- the example transfer, made with separate fee information -/
theorem xfr_non_native : TransferNote.generateNonNative .release rng xfrInputs.tail [outBob, outAlice] feeInfo 900 xfrPk
    [1, 2, 3] = .ok (xfrNote, xfrSk) :=
  generateNonNative_ok.2 ⟨by decide +kernel, xfrNote_eq⟩

/-- it moves an asset that is not native, and pays the requested fee of 7 -/
example : xfrNote.aux_info.fee = 7 ∧ total (xfrInputs.tail.map (·.ro)) = total [outBob, outAlice] :=
  C68_asset_partial xfr_non_native (i := ⟨assetRec, acc1, alice, some cred⟩) (by simp [xfrInputs])
    (by decide +kernel) (by decide +kernel)

/-- a fee information with a change that is not exact is refused -/
example (r : TransferNote × Fr) : TransferNote.generateNonNative .release rng xfrInputs.tail [outBob, outAlice]
    { feeInfo with fee_amount := 6 } 900 xfrPk [1, 2, 3] ≠ .ok r :=
  C68_refused (Or.inl (by decide +kernel)) r

/-- another native record of Alice -/
def spareRec : RecordOpening := ⟨80, AssetDefinition.native, alice.pubKey, .unfrozen, 39⟩
/-- the root of a tree with her two native records -/
def spareRoot : ZMod p := E.nodeHash leaf0 (E.leafHash 1 spareRec.commitment) 0
/-- a fee of 7 -/
def spareFee : TxnFeeInfo :=
  ⟨⟨feeRec, ⟨[⟨E.leafHash 1 spareRec.commitment, 0, .left⟩], spareRoot, 0⟩, alice⟩, 7, chgRec⟩
/-- the other record as input -/
def spareIn : TransferNoteInput := ⟨spareRec, ⟨[⟨leaf0, 0, .middle⟩], spareRoot, 1⟩, alice, none⟩
/-- 30 for Bob -/
def spareOut : RecordOpening := ⟨30, AssetDefinition.native, bob.pubKey, .unfrozen, 47⟩

/-- Alice asks for a fee of 7, spends another coin of 80 and pays Bob 30: a fee of 57 is published. -/
example : (match TransferNote.generateNonNative .release rng [spareIn] [spareOut] spareFee 900 ⟨.transfer 2 2 1, 2, 2, 1⟩ []
    with
    | .ok (n, _) => n.aux_info.fee
    | .error _ => 0) = 57 := by
  decide +kernel

/-- there are keys for `C68_false` -/
example : SnarkComplete ∧ isOk (transferPreprocess 1 2 1) = true := ⟨Toy.complete, by decide +kernel⟩

end Cap.Examples
