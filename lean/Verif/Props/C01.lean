/-
C01: an accepted transfer balances exactly over the integers.

status: proved
note: every satisfying assignment (C01_balance), the host records it stands for (C01_records), and from verify itself under SnarkSound (C01_accepted). Hypotheses: spent amounts fit in 128 bits (C01_bound_needed shows that this cannot be dropped), fewer than 2^64 inputs and outputs.
-/
import Verif.Lemmas.Accepted
import Verif.Lemmas.Forge
import Verif.Lemmas.Opened
import Verif.Props.C17

namespace Cap

open Spec

variable [E : CapEnv] [S : CapExt]

/-- **Assignments.**  In every assignment that opens a transfer note: for a non-native transfer the first input pays
the first output and the fee, and the other inputs equal the other outputs; for a native transfer all inputs equal
all outputs and the fee.  Sums and equalities are those of the natural numbers. -/
theorem C01_balance {a b d : ℕ} {n : TransferNote} {w : TransferWit} (h : OpensTransfer a b d n w)
    (ha : a < 2 ^ 64) (hb : b < 2 ^ 64) (held : ∀ i ∈ w.inputs, i.ro.amount.val < 2 ^ 128) :
    ∃ i0 is o0 os, w.inputs = i0 :: is ∧ w.outputs = o0 :: os ∧
      (∀ o ∈ os, o.asset_code = w.asset_code) ∧ i0.ro.asset_code = nativeCode ∧ o0.asset_code = nativeCode ∧
      (w.asset_code ≠ nativeCode →
        i0.ro.amount.val = o0.amount.val + n.aux_info.fee.val ∧
        (is.map (·.ro.amount.val)).sum = (os.map (·.amount.val)).sum) ∧
      (w.asset_code = nativeCode →
        i0.ro.amount.val + (is.map (·.ro.amount.val)).sum =
          o0.amount.val + (os.map (·.amount.val)).sum + n.aux_info.fee.val) ∧
      ∀ o ∈ w.outputs, o.amount.val < 2 ^ 127 := by
  obtain ⟨i0, is, o0, os, nl, nls, c, cs, hp⟩ := h.sat.parts h.shape
  have hout : ∀ o ∈ w.outputs, o.amount.val < 2 ^ 127 := by
    intro o ho
    rw [hp.outputs, List.mem_cons] at ho
    rcases ho with rfl | ho
    · exact hp.out0.2.2.2
    · obtain ⟨x, -, hx⟩ := hp.mem_out ho
      exact hx.2.2.2
  have hbal := hp.balance
  rw [hp.inputs, hp.outputs] at hbal
  have hl1 := h.shape.inputs_len
  have hl2 := h.shape.outputs_len
  rw [hp.inputs, List.length_cons] at hl1
  rw [hp.outputs, List.length_cons] at hl2
  have hn := balance_nat (ins := is.map (·.ro.amount)) (outs := os.map (·.amount)) hbal
    (by
      intro x hx
      rcases List.mem_cons.1 hx with rfl | hx
      · exact held _ (by rw [hp.inputs]; simp)
      · obtain ⟨i, hi, rfl⟩ := List.mem_map.1 hx
        exact held _ (by rw [hp.inputs]; exact List.mem_cons_of_mem _ hi))
    (by
      intro x hx
      rcases List.mem_cons.1 hx with rfl | hx
      · exact hout _ (by rw [hp.outputs]; simp)
      · obtain ⟨o, ho, rfl⟩ := List.mem_map.1 hx
        exact hout _ (by rw [hp.outputs]; exact List.mem_cons_of_mem _ ho))
    (by rw [List.length_map]; omega) (by rw [List.length_map]; omega)
  have e1 : natSum (is.map (·.ro.amount)) = (is.map (·.ro.amount.val)).sum := by
    simp only [natSum, List.map_map]; rfl
  have e2 : natSum (os.map (·.amount)) = (os.map (·.amount.val)).sum := by
    simp only [natSum, List.map_map]; rfl
  rw [e1, e2] at hn
  refine ⟨i0, is, o0, os, hp.inputs, hp.outputs, ?_, ?_, ?_, fun h1 => hn.1 (Ne.symm h1), fun h1 => hn.2 h1.symm, hout⟩
  · intro o ho
    obtain ⟨x, -, hx⟩ := hp.mem_out ho
    have := hx.2.1
    simp only [Bool.false_eq_true, if_false] at this
    exact this.1
  · have := hp.in0.2.2.1
    simp only [InputPosOk, if_true] at this
    exact this.1
  · have := hp.out0.2.1
    simp only [if_true] at this
    exact this.1

/-- **Records.**  The same for the host records that are spent and created: `ins` and `outs` are the openings whose
committed values the assignment uses. -/
theorem C01_records {a b d : ℕ} {n : TransferNote} {w : TransferWit} (h : OpensTransfer a b d n w)
    (ha : a < 2 ^ 64) (hb : b < 2 ^ 64) {ins outs : List RecordOpening}
    (hin : List.Forall₂ Reads ins (w.inputs.map (·.ro))) (hout : List.Forall₂ Reads outs w.outputs) :
    ∃ i0 is o0 os, ins = i0 :: is ∧ outs = o0 :: os ∧ i0.asset_def.code = nativeCode ∧ o0.asset_def.code = nativeCode ∧
      (∀ o ∈ os, o.asset_def.code = w.asset_code) ∧
      (w.asset_code ≠ nativeCode → i0.amount.val = o0.amount.val + n.aux_info.fee.val ∧ total is = total os) ∧
      (w.asset_code = nativeCode → total ins = total outs + n.aux_info.fee.val) ∧
      ∀ o ∈ outs, o.amount.val < 2 ^ 127 := by
  have sums : ∀ {l : List RecordOpening} {m : List RecordV}, List.Forall₂ Reads l m →
      (m.map (·.amount.val)).sum = total l := by
    intro l m hlm
    induction hlm with
    | nil => rfl
    | cons hr _ ih => simp only [List.map_cons, List.sum_cons, total, reads_amount hr] at ih ⊢; rw [ih]
  obtain ⟨i0, is, o0, os, e1, e2, hcode, hi0, ho0, h1, h2, h3⟩ := C01_balance h ha hb (by
    intro i hi
    obtain ⟨r, -, hr⟩ := forall₂_mem_right hin i.ro (List.mem_map.2 ⟨i, hi, rfl⟩)
    rw [reads_amount hr]
    exact r.amount.isLt)
  have hsmall : ∀ o ∈ outs, o.amount.val < 2 ^ 127 := by
    intro o ho
    obtain ⟨v, hv, hr⟩ := forall₂_mem_right (List.Forall₂.flip (R := fun a b => Reads b a) hout) o ho
    rw [← reads_amount hr]
    exact h3 v hv
  rw [e1, List.map_cons, List.forall₂_cons_right_iff] at hin
  rw [e2, List.forall₂_cons_right_iff] at hout
  obtain ⟨r0, rs, hr0, hrs, rfl⟩ := hin
  obtain ⟨q0, qs, hq0, hqs, rfl⟩ := hout
  have s1 := sums hrs
  have s2 := sums hqs
  rw [List.map_map] at s1
  have s1' : (is.map (·.ro.amount.val)).sum = total rs := s1
  rw [reads_amount hr0, reads_amount hq0, s1', s2] at h1 h2
  refine ⟨r0, rs, q0, qs, rfl, rfl, ?_, ?_, ?_, h1, ?_, hsmall⟩
  · rw [(reads_iff.1 hr0).2.1, hi0]
  · rw [(reads_iff.1 hq0).2.1, ho0]
  · intro o ho
    obtain ⟨v, hv, hr⟩ := forall₂_mem_right (List.Forall₂.flip (R := fun a b => Reads b a) hqs) o ho
    rw [(reads_iff.1 hr).2.1]
    exact hcode v hv
  · intro hn
    have := h2 hn
    simp only [total, List.map_cons, List.sum_cons] at this ⊢
    omega

/-- **Accepted notes.**  If `verify` accepts, some assignment opens the note, and it balances as above whenever the
spent amounts fit in 128 bits. -/
theorem C01_accepted (sound : SnarkSound) {a b : ℕ} {d : Fin 256} {pk : TransferProvingKey}
    {vk : TransferVerifyingKey} (keys : transferPreprocess a b d = .ok (pk, vk)) (ha : a < 2 ^ 64) (hb : b < 2 ^ 64)
    {n : TransferNote} {root : F} {t : U64} (ok : n.verify vk root t = .ok ())
    (hn : n.inputs_nullifiers.length = a) (hc : n.output_commitments.length = b) :
    ∃ w, OpensTransfer a b d.val n w ∧ ((∀ i ∈ w.inputs, i.ro.amount.val < 2 ^ 128) →
      ∃ i0 is o0 os, w.inputs = i0 :: is ∧ w.outputs = o0 :: os ∧
        (w.asset_code ≠ nativeCode →
          i0.ro.amount.val = o0.amount.val + n.aux_info.fee.val ∧
          (is.map (·.ro.amount.val)).sum = (os.map (·.amount.val)).sum) ∧
        (w.asset_code = nativeCode →
          i0.ro.amount.val + (is.map (·.ro.amount.val)).sum =
            o0.amount.val + (os.map (·.amount.val)).sum + n.aux_info.fee.val)) := by
  obtain ⟨w, hw⟩ := transfer_opened sound keys ok hn hc
  refine ⟨w, hw, fun held => ?_⟩
  obtain ⟨i0, is, o0, os, e1, e2, -, -, -, h1, h2, -⟩ := C01_balance hw ha hb held
  exact ⟨i0, is, o0, os, e1, e2, h1, h2⟩

/-- **The bound is needed.**  For every instantiation of the primitives, under a complete proof system, there is an
accepted transfer that spends a record holding the field element `-1` beside a record holding `1` and creates
nothing: the field sum is 0, the sum of the integers is the order of the field.  (Records that hold such amounts can be
created: see C03.) -/
theorem C01_bound_needed (complete : SnarkComplete) {d : Fin 256} (hd : d.val ≠ 0) {pk : TransferProvingKey}
    {vk : TransferVerifyingKey} (keys : transferPreprocess 2 2 d = .ok (pk, vk)) :
    ∃ n w, OpensTransfer 2 2 d.val n w ∧ (∀ t, n.verify vk n.aux_info.merkle_root t = .ok ()) ∧
      w.asset_code = nativeCode ∧ n.aux_info.fee = 0 ∧ (w.inputs.map (·.ro.amount.val)).sum = E.p ∧
      (w.outputs.map (·.amount.val)).sum = 0 := by
  obtain ⟨e, he⟩ : ∃ e, d.val = e + 1 := ⟨d.val - 1, by omega⟩
  have hok : (Forgery.pair (nativeOf (-1)) (nativeOf 1) (nativeOf 0) (nativeOf 0) (frToFq 1) (frToFq 1) e 0
      (Fin.last _)).Ok d.val := by
    rw [he]
    refine Forgery.pair_ok ⟨rfl, rfl, rfl⟩ (nativeOf_spend _) ⟨rfl, native_ne_dummy⟩ (nativeOf_spend _)
      ((isDummyViewingPk_host _).2 rfl) default_map_small ⟨rfl, rfl, rfl⟩ ⟨rfl, rfl⟩
      (by simp [nativeOf]) (by simp [nativeOf]) ⟨fun h => (h rfl).elim, fun _ => ?_⟩
    simp [nativeOf, Amount.toF_zero]
  obtain ⟨π, ho, hv⟩ := Forgery.accepted complete keys _ hok
  refine ⟨_, _, ho, fun t => hv t (Fin.le_last t), rfl, rfl, ?_, ?_⟩
  · have h1 : ((-1 : F)).val = E.p - 1 := by
      have : ((-1 : F)) = ((E.p - 1 : ℕ) : F) := by
        rw [Nat.cast_sub (by have := E.p_gt; omega)]; simp
      rw [this]
      exact ZMod.val_natCast_of_lt (by have := E.p_gt; omega)
    have h2 : ((1 : F)).val = 1 := by simpa using natF_val (E := E) (n := 1) (by norm_num)
    simp only [Forgery.wit, Forgery.pair, nativeOf, List.map_cons, List.map_nil, List.sum_cons, List.sum_nil, h1, h2]
    have := E.p_gt
    omega
  · simp [Forgery.wit, Forgery.pair, nativeOf]

end Cap

namespace Cap.Examples
open Toy Spec

/-- the example transfer satisfies the hypotheses of `C01_balance` and of `C01_records`: 50 = 20 + 30 units of the
asset, 100 = 93 + 7 of the native asset -/
example : ∃ w : TransferWit, OpensTransfer 3 3 1 xfrNote w ∧ (∀ i ∈ w.inputs, i.ro.amount.val < 2 ^ 128) ∧
    List.Forall₂ Reads [feeRec, assetRec, dummyRec] (w.inputs.map (·.ro)) ∧ List.Forall₂ Reads xfrOutputs w.outputs ∧
    total [assetRec, dummyRec] = 50 := by
  obtain ⟨w, h, h1, h2, -⟩ := xfr_opens
  have hr : ∀ l : List RecordOpening, List.Forall₂ Reads l (l.map RecordOpening.toV) := by
    intro l
    induction l with
    | nil => exact .nil
    | cons a as ih => exact .cons (Reads.toV a) ih
  have hin : List.Forall₂ Reads [feeRec, assetRec, dummyRec] (w.toV.inputs.map (·.ro)) := by rw [h1]; exact hr _
  refine ⟨w.toV, h, ?_, hin, by rw [h2]; exact hr _, by decide +kernel⟩
  intro i hi
  obtain ⟨r, -, hr⟩ := forall₂_mem_right hin i.ro (List.mem_map.2 ⟨i, hi, rfl⟩)
  rw [reads_amount hr]
  exact r.amount.isLt

/-- `C01_accepted` applies to the example transfer -/
example : ∃ w, OpensTransfer 3 3 1 xfrNote w ∧ ((∀ i ∈ w.inputs, i.ro.amount.val < 2 ^ 128) →
    ∃ i0 is o0 os, w.inputs = i0 :: is ∧ w.outputs = o0 :: os ∧
      (w.asset_code ≠ nativeCode →
        i0.ro.amount.val = o0.amount.val + xfrNote.aux_info.fee.val ∧
        (is.map (·.ro.amount.val)).sum = (os.map (·.amount.val)).sum) ∧
      (w.asset_code = nativeCode →
        i0.ro.amount.val + (is.map (·.ro.amount.val)).sum =
          o0.amount.val + (os.map (·.amount.val)).sum + xfrNote.aux_info.fee.val)) :=
  C01_accepted Toy.sound xfrKeys_eq (by norm_num) (by norm_num) (xfrNote_verify 0 (by decide)) rfl rfl

/-- and there are keys for `C01_bound_needed` -/
example : ∃ pk vk, transferPreprocess 2 2 1 = .ok (pk, vk) := ⟨_, _, rfl⟩

end Cap.Examples
