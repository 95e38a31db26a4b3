/-
C55: every well-formed payment goes through.

status: partial
note: The two public entry points. C55_native_partial: whoever owns native records of the tree that cover the outputs and the fee can pay through generate_native, in both builds and for every randomness; the change is exactly what is left, and the note is accepted until valid_until. C55_asset_partial: the same for another asset through TxnFeeInfo::new and generate_non_native, within Spec.Limits (C48). FALSE without limits: C55_native_exact: generate_native succeeds exactly when valid_until is below 2^20, so C55_false: no native payment at all is possible with a later valid_until. Totals are required to be below 2^127. Completeness of the SNARK is assumed.
-/
import Verif.SpecComplete
import Verif.Lemmas.CompleteMintFreeze
import Verif.Props.C24
import Verif.Props.C48

namespace Cap

open Spec

variable [E : CapEnv] [S : CapExt]

omit S in
theorem native_cred_pk : (AssetDefinition.native : AssetDefinition).policy.cred_pk = 0 := rfl

omit S in
/-- a native payment with its change is a well-formed transfer -/
theorem Spec.NativePayment.wellFormed {ni no d : ℕ} {root : F} {inputs : List TransferNoteInput}
    {outputs : List RecordOpening} {fee : Amount} (h : NativePayment ni no d root inputs outputs fee)
    (valid_until : U64) {chg : RecordOpening} (native : chg.asset_def = AssetDefinition.native)
    (unfrozen : chg.freeze_flag = .unfrozen)
    (exact : total (inputs.map (·.ro)) = total outputs + chg.amount.val + fee.val) :
    WellFormed ni no d valid_until inputs (chg :: outputs) AssetDefinition.native fee root := by
  have hz : ∀ r ∈ inputs.map (·.ro), r.asset_def = AssetDefinition.dummy → r.amount = 0 := by
    intro r hr hd
    obtain ⟨i, hi, rfl⟩ := List.mem_map.1 hr
    exact (h.spendable i hi).dummy hd
  have hreal : total (real (inputs.map (·.ro))) = total (inputs.map (·.ro)) := total_real hz
  have hin : ∀ r ∈ real (inputs.map (·.ro)), r.asset_def.code = nativeCode := by
    intro r hr
    unfold real at hr
    obtain ⟨hr, hd⟩ := List.mem_filter.1 hr
    obtain ⟨i, hi, rfl⟩ := List.mem_map.1 hr
    rcases h.native_in i hi with hn | hn
    · rw [hn]; rfl
    · exact absurd hn (by simpa using hd)
  have hout : ∀ o ∈ chg :: outputs, o.asset_def.code = nativeCode := by
    intro o ho
    rcases List.mem_cons.1 ho with rfl | ho
    · rw [native]; rfl
    · rw [(h.native_out o ho).1]; rfl
  refine ⟨⟨h.num_in, ?_, fun i hi => (h.spendable i hi).depth, h.first, ⟨chg, outputs, rfl, native⟩, ?_, ?_, fun _ => rfl,
    native_ne_dummy, fun _ => rfl, fun i hi => (h.spendable i hi).owned,
    fun i hi => (h.spendable i hi).unfrozen, ?_, fun i hi => (h.spendable i hi).member,
    fun i hi => (h.spendable i hi).dummy, h.once, ?_, ?_, ?_⟩, fun hf => absurd rfl hf⟩
  · rw [List.length_cons]; exact h.num_out
  · intro i hi
    exact (h.native_in i (List.mem_of_mem_tail hi)).symm
  · intro o ho
    exact (h.native_out o ho).1
  · intro o ho
    rcases List.mem_cons.1 ho with rfl | ho
    · exact unfrozen
    · exact (h.native_out o ho).2
  · obtain ⟨i0, is, rfl, hn⟩ := h.first
    refine ⟨i0.ro, is.map (·.ro), rfl, fun c => ?_⟩
    rw [hn]
    by_cases hc : c = nativeCode
    · subst hc
      rw [totalOf_eq_total hin, totalOf_eq_total hout, hreal, if_pos (by rfl), total_cons, exact]
      omega
    · rw [totalOf_eq_zero (fun r hr => by rw [hin r hr]; exact fun e => hc e.symm),
        totalOf_eq_zero (fun r hr => by rw [hout r hr]; exact fun e => hc e.symm),
        if_neg (show ¬ c = AssetDefinition.native.code from hc)]
  · rw [hreal]; exact h.small
  · intro i hi hc
    rcases h.native_in i hi with hn | hn
    · rw [hn] at hc; exact absurd rfl hc
    · rw [hn] at hc; exact absurd rfl hc

omit S in
theorem Spec.NativePayment.limits {ni no d : ℕ} {root : F} {inputs : List TransferNoteInput}
    {outputs : List RecordOpening} {fee : Amount} (h : NativePayment ni no d root inputs outputs fee)
    {valid_until : U64} (window : valid_until.val < 2 ^ 20) :
    Limits valid_until inputs AssetDefinition.native := by
  refine ⟨window, fun i hi hc => ?_, Or.inl rfl⟩
  rcases h.native_in i hi with hn | hn
  · rw [hn] at hc; exact absurd rfl hc
  · rw [hn] at hc; exact absurd rfl hc

section
variable {ni no : ℕ} {d : Fin 256} {root : F} {inputs : List TransferNoteInput} {outputs : List RecordOpening}
  {fee : Amount} {valid_until : U64} {pk : TransferProvingKey} {vk : TransferVerifyingKey}

/-- **Native payments.** -/
theorem C55_native_partial (complete : SnarkComplete) (keys : transferPreprocess ni no d = .ok (pk, vk))
    (pay : NativePayment ni no d.val root inputs outputs fee) (window : valid_until.val < 2 ^ 20)
    (b : Build) (chg_blind : F) (rng : TransferRand) :
    ∃ n sk chg, TransferNote.generateNative b chg_blind rng inputs outputs fee valid_until pk = .ok (n, sk, chg) ∧
      total (inputs.map (·.ro)) = total outputs + chg.amount.val + fee.val ∧
      n.aux_info.fee = fee ∧ n.inputs_nullifiers = inputs.map nullifierOf ∧
      n.output_commitments = (chg :: outputs).map RecordOpening.commitment ∧
      ∀ t, t ≤ valid_until → n.verify vk root t = .ok () := by
  have hz : ∀ r ∈ inputs.map (·.ro), r.asset_def = AssetDefinition.dummy → r.amount = 0 := by
    intro r hr hd
    obtain ⟨i, hi, rfl⟩ := List.mem_map.1 hr
    exact (pay.spendable i hi).dummy hd
  have hreal : total (real (inputs.map (·.ro))) = total (inputs.map (·.ro)) := total_real hz
  have hc := pay.covers
  have hs := pay.small
  obtain ⟨i0, is, rfl, hn⟩ := pay.first
  have hsum : (((i0 :: is).filter (fun i => !i.ro.isDummy)).map (·.ro.amount) |>.map Fin.val).sum =
      total ((i0 :: is).map (·.ro)) := by
    rw [← hreal, real_eq, List.filter_map, total, List.map_map, List.map_map]
    rfl
  have hsumo : ((outputs.map (·.amount)).map Fin.val).sum = total outputs := by
    rw [List.map_map]; rfl
  let tin : Amount := ⟨total ((i0 :: is).map (·.ro)), by omega⟩
  let tout : Amount := ⟨total outputs, by omega⟩
  let need : Amount := ⟨total outputs + fee.val, by omega⟩
  let chg : RecordOpening := ⟨tin - tout - fee, AssetDefinition.native, i0.ro.pub_key, .unfrozen, chg_blind⟩
  have hchg : chg.amount.val = total ((i0 :: is).map (·.ro)) - total outputs - fee.val := by
    have h1 : tout ≤ tin := by
      show total outputs ≤ total ((i0 :: is).map (·.ro))
      omega
    have h2 : (tin - tout).val = total ((i0 :: is).map (·.ro)) - total outputs := Fin.sub_val_of_le h1
    have h3 : fee ≤ tin - tout := by
      show fee.val ≤ (tin - tout).val
      omega
    show (tin - tout - fee).val = _
    rw [Fin.sub_val_of_le h3, h2]
  have hexact : total ((i0 :: is).map (·.ro)) = total outputs + chg.amount.val + fee.val := by omega
  obtain ⟨n, sk, gen, h1, -, -, h4, h5, h6⟩ := C48_partial complete keys
    (pay.wellFormed valid_until (chg := chg) rfl rfl hexact) (pay.limits window) b rng []
  refine ⟨n, sk, chg, ?_, hexact, h1, h4, h5, h6⟩
  unfold TransferNote.generateNative
  simp only [bind_ok_iff, safeSumOr_ok]
  refine ⟨(), ?_, tin, hsum, tout, hsumo, need, ?_, (), ?_, (n, sk), gen, rfl⟩
  · rw [ensure_ok_iff]
    simp only [Bool.not_eq_true', Bool.or_eq_false_iff, Bool.not_eq_false', List.any_eq_false,
      AssetDefinition.isNative_iff]
    refine ⟨⟨hn, fun i hi => ?_⟩, fun o ho => ?_⟩
    · rcases pay.native_in i (List.mem_cons_of_mem _ hi) with hx | hx
      · simp [(AssetDefinition.isNative_iff (d := i.ro.asset_def)).2 hx]
      · simp [(RecordOpening.isDummy_iff i.ro).2 hx]
    · simp [(AssetDefinition.isNative_iff (d := o.asset_def)).2 (pay.native_out o ho).1]
  · unfold addU128
    exact dif_pos (show tout.val + fee.val < 2 ^ 128 by show total outputs + fee.val < 2 ^ 128; omega)
  · rw [ensure_ok_iff, Bool.not_eq_true', decide_eq_false_iff_not]
    show ¬ tin.val < need.val
    show ¬ total ((i0 :: is).map (·.ro)) < total outputs + fee.val
    omega

/-- **The limit is exact.** -/
theorem C55_native_exact (complete : SnarkComplete) (keys : transferPreprocess ni no d = .ok (pk, vk))
    (pay : NativePayment ni no d.val root inputs outputs fee) (b : Build) (chg_blind : F) (rng : TransferRand) :
    (∃ x, TransferNote.generateNative b chg_blind rng inputs outputs fee valid_until pk = .ok x) ↔
      valid_until.val < 2 ^ 20 := by
  constructor
  · rintro ⟨x, h⟩
    unfold TransferNote.generateNative at h
    split at h
    · cases h
    · simp only [bind_ok_iff] at h
      obtain ⟨_, _, _, _, _, _, _, _, _, _, ⟨n, sk⟩, gen, _⟩ := h
      exact C38_window gen
  · intro hw
    obtain ⟨n, sk, chg, gen, -⟩ := C55_native_partial complete keys pay hw b chg_blind rng
    exact ⟨_, gen⟩

/-- **The property as stated is false**: with a `valid_until` of 2^20 or more, no payment is generated. -/
theorem C55_false (late : 2 ^ 20 ≤ valid_until.val) (b : Build) (chg_blind : F) (rng : TransferRand) (x) :
    TransferNote.generateNative b chg_blind rng inputs outputs fee valid_until pk ≠ .ok x := by
  intro h
  unfold TransferNote.generateNative at h
  split at h
  · cases h
  · simp only [bind_ok_iff] at h
    obtain ⟨_, _, _, _, _, _, _, _, _, _, ⟨n, sk⟩, gen, _⟩ := h
    have := C38_window gen
    omega

end

omit S in
/-- a payment in another asset with the change of the fee is a well-formed transfer -/
theorem Spec.AssetPayment.wellFormed {ni no d : ℕ} {root : F} {valid_until : U64} {ad : AssetDefinition}
    {inputs : List TransferNoteInput} {outputs : List RecordOpening} {fi : FeeInput} {fee : Amount}
    (h : AssetPayment ni no d root valid_until ad inputs outputs fi fee) {chg : RecordOpening}
    (native : chg.asset_def = AssetDefinition.native) (unfrozen : chg.freeze_flag = .unfrozen)
    (exact : chg.amount.val + fee.val = fi.ro.amount.val) :
    WellFormed ni no d valid_until (fi.toTransferInput :: inputs) (chg :: outputs) ad fee root := by
  have hz : ∀ r ∈ inputs.map (·.ro), r.asset_def = AssetDefinition.dummy → r.amount = 0 := by
    intro r hr hd
    obtain ⟨i, hi, rfl⟩ := List.mem_map.1 hr
    exact (h.spendable i hi).dummy hd
  have hreal : total (real (inputs.map (·.ro))) = total (inputs.map (·.ro)) := total_real hz
  have hin : ∀ r ∈ real (inputs.map (·.ro)), r.asset_def.code = ad.code := by
    intro r hr
    unfold real at hr
    obtain ⟨hr, hd⟩ := List.mem_filter.1 hr
    obtain ⟨i, hi, rfl⟩ := List.mem_map.1 hr
    rcases h.asset_in i hi with hn | hn
    · rw [hn]
    · exact absurd hn (by simpa using hd)
  have hout : ∀ o ∈ outputs, o.asset_def.code = ad.code := fun o ho => by rw [(h.asset_out o ho).1]
  have hfd : fi.ro.asset_def ≠ AssetDefinition.dummy := by rw [h.pays.native]; exact nativeDef_ne_dummyDef
  have hcons : ((fi.toTransferInput :: inputs).map (·.ro)) = fi.ro :: inputs.map (·.ro) := rfl
  have adnd : ad ≠ AssetDefinition.dummy := fun e => h.code.2 (by rw [e]; rfl)
  refine ⟨⟨?_, ?_, ?_, ⟨_, _, rfl, h.pays.native⟩, ⟨chg, outputs, rfl, native⟩, ?_, ?_, ?_,
    h.code.2, fun e => absurd e h.code.1, ?_, ?_, ?_, ?_, ?_, h.once, ?_, ?_, ?_⟩, h.freezer_has_viewer⟩
  · rw [List.length_cons]; exact h.num_in
  · rw [List.length_cons]; exact h.num_out
  · exact List.forall_mem_cons.2 ⟨h.pays.depth, fun i hi => (h.spendable i hi).depth⟩
  · exact fun i hi => (h.asset_in i hi).symm
  · exact fun o ho => (h.asset_out o ho).1
  · intro hall
    obtain ⟨i, hi, ha⟩ := h.some_in
    exact absurd (ha.symm.trans (hall i hi)) adnd
  · exact List.forall_mem_cons.2 ⟨h.pays.owned, fun i hi => (h.spendable i hi).owned⟩
  · exact List.forall_mem_cons.2 ⟨h.pays.unfrozen, fun i hi => (h.spendable i hi).unfrozen⟩
  · exact List.forall_mem_cons.2 ⟨unfrozen, fun o ho => (h.asset_out o ho).2⟩
  · exact List.forall_mem_cons.2 ⟨fun _ => h.pays.member, fun i hi => (h.spendable i hi).member⟩
  · exact List.forall_mem_cons.2 ⟨fun e => absurd e hfd, fun i hi => (h.spendable i hi).dummy⟩
  · refine ⟨fi.ro, inputs.map (·.ro), hcons, fun c => ?_⟩
    rw [hcons, real_cons_of_ne hfd, totalOf_cons, totalOf_cons, h.pays.native, native]
    have hb := h.balanced
    by_cases hc : c = nativeCode
    · subst hc
      rw [totalOf_eq_zero (fun r hr => by rw [hin r hr]; exact h.code.1),
        totalOf_eq_zero (fun r hr => by rw [hout r hr]; exact h.code.1), if_pos (by rfl), if_pos (by rfl), if_pos (by rfl)]
      omega
    · have hc' : ¬ AssetDefinition.native.code = c := fun e => hc e.symm
      rw [if_neg hc', if_neg hc', if_neg (show ¬ c = AssetDefinition.native.code from hc)]
      by_cases ha : ad.code = c
      · subst ha
        rw [totalOf_eq_total hin, totalOf_eq_total hout, hreal, hb]
        omega
      · rw [totalOf_eq_zero (fun r hr => by rw [hin r hr]; exact ha),
          totalOf_eq_zero (fun r hr => by rw [hout r hr]; exact ha)]
  · rw [hcons, real_cons_of_ne hfd, total_cons, hreal]
    exact h.small
  · intro i hi hc
    rcases List.mem_cons.1 hi with rfl | hi
    · exact absurd (by show fi.ro.asset_def.policy.cred_pk = 0; rw [h.pays.native]; rfl) hc
    · rcases h.asset_in i hi with hn | hn
      · exact h.creds (by rw [← hn]; exact hc) i hi hn
      · rw [hn] at hc; exact absurd rfl hc

/-- **Payments in other assets.** -/
theorem C55_asset_partial (complete : SnarkComplete) {ni no : ℕ} {d : Fin 256} {pk : TransferProvingKey}
    {vk : TransferVerifyingKey} (keys : transferPreprocess ni no d = .ok (pk, vk)) {root : F} {valid_until : U64}
    {ad : AssetDefinition} {inputs : List TransferNoteInput} {outputs : List RecordOpening} {fi : FeeInput} {fee : Amount}
    (pay : AssetPayment ni no d.val root valid_until ad inputs outputs fi fee)
    (limits : Limits valid_until (fi.toTransferInput :: inputs) ad)
    (b : Build) (chg_blind : F) (rng : TransferRand) (extra : List Byte) :
    ∃ info chg n sk, TxnFeeInfo.new chg_blind fi fee = .ok (info, chg) ∧
      TransferNote.generateNonNative b rng inputs outputs info valid_until pk extra = .ok (n, sk) ∧
      chg.amount.val + fee.val = fi.ro.amount.val ∧ n.aux_info.fee = fee ∧
      n.inputs_nullifiers = (fi.toTransferInput :: inputs).map nullifierOf ∧
      n.output_commitments = (chg :: outputs).map RecordOpening.commitment ∧
      ∀ t, t ≤ valid_until → n.verify vk root t = .ok () := by
  obtain ⟨info, chg, new⟩ := pay.pays.info chg_blind
  have hf := pay.pays.fee_ok new
  obtain ⟨h1, h2, h3, h4, -, rfl, rfl, rfl⟩ := C23_change _ _ _ _ _ new
  obtain ⟨n, sk, gen, g1, -, -, g4, g5, g6⟩ := C48_partial complete keys (pay.wellFormed h3 h4 h1) limits b rng extra
  refine ⟨info, info.fee_chg_ro, n, sk, new, ?_, h1, g1, g4, g5, g6⟩
  unfold TransferNote.generateNonNative
  rw [bind_ok_iff]
  exact ⟨(), checkFee_ok.2 hf, gen⟩

end Cap

namespace Cap.Examples
open Toy Spec

/-- Alice pays 60 to Bob with a fee of 3; the second input is a dummy -/
example : NativePayment 2 2 1 root natInputs natOutputs 3 ∧ SnarkComplete ∧
    transferPreprocess 2 2 (1 : Fin 256) = .ok (natPk, natVk) := by
  refine ⟨⟨rfl, rfl, ⟨_, _, rfl, rfl⟩, by decide +kernel, by decide +kernel, ?_, by decide +kernel, by decide +kernel,
    by decide +kernel⟩, complete, natKeys_eq⟩
  intro i hi
  simp only [natInputs, List.mem_cons, List.not_mem_nil, or_false] at hi
  rcases hi with rfl | rfl
  · exact ⟨rfl, rfl, rfl, fun _ => by decide +kernel, fun h => absurd h (by decide +kernel)⟩
  · exact ⟨rfl, rfl, rfl, fun h => absurd rfl h, fun _ => rfl⟩

/-- the example transfer with a dummy and a credential, over the threshold -/
example : AssetPayment 3 3 1 root 900 asset xfrInputs.tail [outBob, outAlice] ⟨feeRec, acc0, alice⟩ 7 := by
  refine ⟨rfl, rfl, by decide +kernel, by decide +kernel, ⟨rfl, rfl, rfl, rfl, by decide +kernel, by decide +kernel⟩,
    by decide +kernel, by decide +kernel, by decide +kernel, ?_, by decide +kernel, by decide +kernel, by decide +kernel, ?_⟩
  · intro i hi
    simp only [xfrInputs, List.tail_cons, List.mem_cons, List.not_mem_nil, or_false] at hi
    rcases hi with rfl | rfl
    · exact ⟨rfl, rfl, rfl, fun _ => by decide +kernel, fun h => absurd h (by decide +kernel)⟩
    · exact ⟨rfl, rfl, rfl, fun h => absurd rfl h, fun _ => rfl⟩
  · intro _ i hi ha
    simp only [xfrInputs, List.tail_cons, List.mem_cons, List.not_mem_nil, or_false] at hi
    rcases hi with rfl | rfl
    · exact ⟨cred, rfl, by decide +kernel, by decide +kernel⟩
    · exact absurd ha (by decide +kernel)

/-- and its limits -/
example : Limits 900 ((⟨feeRec, acc0, alice⟩ : FeeInput).toTransferInput :: xfrInputs.tail) asset := by
  refine ⟨by decide, ?_, Or.inr (Or.inr ?_)⟩
  · have h : ∀ i ∈ xfrInputs, ∀ c ∈ i.cred, c.expiry.val < 900 + 2 ^ 20 := by decide +kernel
    exact fun i hi _ c hc => h i hi c hc
  · exact ⟨by decide +kernel, Or.inl (by decide +kernel)⟩

end Cap.Examples
