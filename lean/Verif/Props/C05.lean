/-
C05: frozen records cannot move, and transfers never create frozen records.

status: proved
note: For every satisfying assignment and at every position. A circuit record is an assignment to variables; the theorems *_records speak of the record openings with the same committed values (Spec.Reads): they are unfrozen too, also at dummy positions, where the reveal map is not range-checked. C05_transfer_accepted is end to end: a verified note whose nullifier/commitment positions are opened; a frozen record whose commitment is the one of a spent input is a collision of the commitment function between two named inputs.
-/
import Verif.Lemmas.Opened
import Verif.Props.C17

namespace Cap

open Spec

variable [E : CapEnv] [S : CapExt]

omit S in
/-- A dummy position: the reveal map is only constrained by `map + threshold = 0`. -/
theorem reads_dummy_unfrozen {ro : RecordOpening} {v : RecordV} (h : Reads ro v) (hf : v.freeze_flag = false)
    (hd : v.policy.isDummyPolicy = true) : ro.freeze_flag = .unfrozen := by
  obtain ⟨-, -, -, -, -, -, h7, h8, -⟩ := reads_iff.1 h
  simp only [PolicyV.isDummyPolicy, Bool.and_eq_true, decide_eq_true_eq] at hd
  have hs := hd.2
  rw [← h8] at hs
  have e : ((2 * ro.asset_def.policy.reveal_map.toNat + ro.freeze_flag.toNat +
      2 * ro.asset_def.policy.reveal_threshold.val : ℕ) : F) = ((0 : ℕ) : F) := by
    push_cast
    rw [hf] at h7
    have : v.policy.reveal_map = -Amount.toF ro.asset_def.policy.reveal_threshold := eq_neg_of_add_eq_zero_left hs
    rw [this] at h7
    simp only [RevealMap.toScalar, Amount.toF, boolF, Bool.false_eq_true, if_false, add_zero] at h7
    rw [h7]
    ring
  have hm := RevealMap.toNat_lt ro.asset_def.policy.reveal_map
  have ht := ro.asset_def.policy.reveal_threshold.isLt
  have hfl : ro.freeze_flag.toNat ≤ 1 := by cases ro.freeze_flag <;> simp [FreezeFlag.toNat]
  have := natF_inj (by have : (2:ℕ) * 2 ^ 12 + 1 + 2 * 2 ^ 128 < 2 ^ 252 := by norm_num
                       omega) (by norm_num) e
  cases hff : ro.freeze_flag with
  | unfrozen => rfl
  | frozen => rw [hff] at this; simp [FreezeFlag.toNat] at this

omit S in
theorem reads_small_unfrozen {ro : RecordOpening} {v : RecordV} (h : Reads ro v) (hf : v.freeze_flag = false)
    (hm : v.policy.reveal_map.val < 2 ^ 12) : ro.freeze_flag = .unfrozen := by
  have := reads_small h hm
  rw [this] at hf
  exact FreezeFlag.toBool_eq_false.1 hf

/-- **Transfers.**  Every input, dummies and the fee input included, and every output is unfrozen. -/
theorem C05_transfer {a b d : ℕ} {n : TransferNote} {w : TransferWit} (h : OpensTransfer a b d n w) :
    (∀ i ∈ w.inputs, i.ro.freeze_flag = false) ∧ ∀ o ∈ w.outputs, o.freeze_flag = false := by
  obtain ⟨i0, is, o0, os, nl, nls, c, cs, P⟩ := h.sat.parts h.shape
  constructor
  · intro i hi
    rw [P.inputs] at hi
    rcases List.mem_cons.1 hi with rfl | hi
    · exact P.in0.1
    · obtain ⟨x, -, hx⟩ := P.mem_in hi
      exact hx.1
  · intro o ho
    rw [P.outputs] at ho
    rcases List.mem_cons.1 ho with rfl | ho
    · exact P.out0.1
    · obtain ⟨x, -, hx⟩ := P.mem_out ho
      exact hx.1

/-- **Transfers, records.**  A record opening with the committed values of an input or output is unfrozen. -/
theorem C05_transfer_records {a b d : ℕ} {n : TransferNote} {w : TransferWit} (h : OpensTransfer a b d n w)
    {ro : RecordOpening} :
    (∀ i ∈ w.inputs, Reads ro i.ro → ro.freeze_flag = .unfrozen) ∧
      ∀ o ∈ w.outputs, Reads ro o → ro.freeze_flag = .unfrozen := by
  obtain ⟨i0, is, o0, os, nl, nls, c, cs, P⟩ := h.sat.parts h.shape
  obtain ⟨m1, m2, m3, m4⟩ := P.map_in h.sat
  obtain ⟨f1, f2⟩ := C05_transfer h
  have hw : w.policy.reveal_map.val < 2 ^ 12 := h.sat.map_range
  constructor
  · intro i hi hr
    have hf := f1 i hi
    rw [P.inputs] at hi
    rcases List.mem_cons.1 hi with rfl | hi
    · exact reads_small_unfrozen hr hf (by rw [m1]; exact default_map_small)
    · by_cases hd : i.ro.isDummy = true
      · obtain ⟨x, -, hx⟩ := P.mem_in hi
        have := hx.2.2.1
        simp only [InputPosOk, Bool.false_eq_true, if_false, hd, false_or] at this
        exact reads_dummy_unfrozen hr hf (by simpa using this.1)
      · exact reads_small_unfrozen hr hf (by rw [m3 i hi (by simpa using hd)]; exact hw)
  · intro o ho hr
    have hf := f2 o ho
    rw [P.outputs] at ho
    rcases List.mem_cons.1 ho with rfl | ho
    · exact reads_small_unfrozen hr hf (by rw [m2]; exact default_map_small)
    · exact reads_small_unfrozen hr hf (by rw [m4 o ho]; exact hw)

/-- **Transfers, end to end.**  An accepted note spends no record whose opening says "frozen": if a frozen record opens
the commitment of the `i`-th spent input, the commitment function collides on the two openings; likewise for the
published output commitments. -/
theorem C05_transfer_accepted (sound : SnarkSound) {a b : ℕ} {d : Fin 256} {pk : TransferProvingKey}
    {vk : TransferVerifyingKey} (keys : transferPreprocess a b d = .ok (pk, vk)) {n : TransferNote} {root : F}
    {t : U64} (ok : n.verify vk root t = .ok ()) (hn : n.inputs_nullifiers.length = a)
    (hc : n.output_commitments.length = b) :
    ∃ w, OpensTransfer a b d.val n w ∧ w.outputs.map (·.commitment) = n.output_commitments ∧
      ∀ ro : RecordOpening, ro.freeze_flag = .frozen →
        (∀ i ∈ w.inputs, ro.commitment = i.ro.commitment →
          Collides commitOf (ro.scalars, ro.blind) (i.ro.scalars, i.ro.blind)) ∧
        ∀ o ∈ w.outputs, ro.commitment = o.commitment →
          Collides commitOf (ro.scalars, ro.blind) (o.scalars, o.blind) := by
  obtain ⟨w, h⟩ := transfer_opened sound keys ok hn hc
  refine ⟨w, h, ?_, ?_⟩
  · obtain ⟨i0, is, o0, os, nl, nls, c, cs, P⟩ := h.sat.parts h.shape
    have hcs : n.output_commitments = c :: cs := P.commitments
    rw [hcs, P.outputs, List.map_cons, P.out0.2.2.1]
    congr 1
    have := P.outs
    clear P hcs
    induction this with
    | nil => rfl
    | cons hx _ ih => rw [List.map_cons, hx.2.2.1, ih]
  · intro ro hro
    obtain ⟨h1, h2⟩ := C05_transfer_records h (ro := ro)
    constructor
    · intro i hi he
      rcases reads_or_collides he with hr | hcol
      · rw [h1 i hi hr] at hro; cases hro
      · exact hcol
    · intro o ho he
      rcases reads_or_collides he with hr | hcol
      · rw [h2 o ho hr] at hro; cases hro
      · exact hcol

/-- **Mints.**  The minted record, the fee record and the change are unfrozen. -/
theorem C05_mint {d : ℕ} {n : MintNote} {w : MintWit} (h : OpensMint d n w) :
    (w.mint_ro.freeze_flag = false ∧ w.fee_ro.freeze_flag = false ∧ w.chg_ro.freeze_flag = false) ∧
      ∀ ro : RecordOpening, Reads ro w.mint_ro ∨ Reads ro w.fee_ro ∨ Reads ro w.chg_ro →
        ro.freeze_flag = .unfrozen := by
  refine ⟨⟨h.sat.mint_unfrozen, h.sat.fee_unfrozen, h.sat.chg_unfrozen⟩, ?_⟩
  rintro ro (hr | hr | hr)
  · refine reads_small_unfrozen hr h.sat.mint_unfrozen ?_
    have := PolicyV.enforceEqual_iff.1 h.sat.mint_policy
    rw [← this]
    show (RevealMap.toScalar _).val < _
    rw [RevealMap.toScalar_val]
    exact RevealMap.toNat_lt _
  · refine reads_small_unfrozen hr h.sat.fee_unfrozen ?_
    rw [PolicyV.enforceDummy_iff.1 h.sat.fee_policy]
    exact default_map_small
  · refine reads_small_unfrozen hr h.sat.chg_unfrozen ?_
    rw [PolicyV.enforceDummy_iff.1 h.sat.chg_policy]
    exact default_map_small

/-- **Freezes.**  The fee record and its change are unfrozen. -/
theorem C05_freeze {m d : ℕ} {n : FreezeNote} {w : FreezeWit} (h : OpensFreeze m d n w) :
    (w.fee_ro.freeze_flag = false ∧ w.chg_ro.freeze_flag = false) ∧
      ∀ ro : RecordOpening, Reads ro w.fee_ro ∨ Reads ro w.chg_ro → ro.freeze_flag = .unfrozen := by
  obtain ⟨v, -, -, hs⟩ := h
  refine ⟨⟨hs.fee_unfrozen, hs.chg_unfrozen⟩, ?_⟩
  rintro ro (hr | hr)
  · refine reads_small_unfrozen hr hs.fee_unfrozen ?_
    rw [PolicyV.enforceDummy_iff.1 hs.fee_policy]
    exact default_map_small
  · refine reads_small_unfrozen hr hs.chg_unfrozen ?_
    rw [PolicyV.enforceDummy_iff.1 hs.chg_policy]
    exact default_map_small

end Cap

namespace Cap.Examples
open Toy Spec

/-- the example transfer is opened; its inputs are host records -/
example : ∃ w, OpensTransfer 3 3 1 xfrNote w ∧ (∃ i ∈ w.inputs, Reads assetRec i.ro) ∧
    (∃ i ∈ w.inputs, Reads dummyRec i.ro ∧ i.ro.isDummy = true) ∧ ∃ o ∈ w.outputs, Reads outBob o := by
  obtain ⟨w, h, hi, ho, -⟩ := xfr_opens
  have hm : ∀ r : RecordOpening, r.toV ∈ [feeRec, assetRec, dummyRec].map RecordOpening.toV →
      ∃ i ∈ w.toV.inputs, i.ro = r.toV := by
    intro r hr
    rw [← hi] at hr
    obtain ⟨i, h1, h2⟩ := List.mem_map.1 hr
    exact ⟨i, h1, h2⟩
  obtain ⟨i, h1, h2⟩ := hm assetRec (by simp)
  obtain ⟨j, h3, h4⟩ := hm dummyRec (by simp)
  refine ⟨w.toV, h, ⟨i, h1, h2 ▸ Reads.toV _⟩, ⟨j, h3, h4 ▸ Reads.toV _, ?_⟩, ⟨outBob.toV, ?_, Reads.toV _⟩⟩
  · rw [h4]; decide +kernel
  · rw [ho]; simp [xfrOutputs]

/-- end to end for the example note -/
example : ∃ w, OpensTransfer 3 3 1 xfrNote w :=
  (C05_transfer_accepted Toy.sound xfrKeys_eq (xfrNote_verify 0 (by decide)) rfl rfl).imp fun _ h => h.1

example : OpensMint 1 mintNote (mintWitnessOf rng.enc_rand mintRec seed desc feeInfo).toV ∧
    Reads mintRec (mintWitnessOf rng.enc_rand mintRec seed desc feeInfo).toV.mint_ro := ⟨mint_opens, Reads.toV _⟩
example : OpensFreeze 4 1 frzNote (freezeWitV frzRng.blinds frzInputs feeInfo) := frz_opens

end Cap.Examples
