/-
C24: generated native transfers spend exactly what they take.

status: proved
note: In both builds and for all amounts: the inputs (dummies carry nothing) equal the outputs plus the change plus the requested fee, over the natural numbers, the change is native, unfrozen and the first input's owner's, is the first output of the note, and the published fee is the requested one. In release builds the unchecked `total_out + fee` may wrap; C24_wrap shows that generate then refuses. With no inputs the function panics (C24_empty).
-/
import Verif.Props.C40

namespace Cap

open Spec

variable [E : CapEnv] [S : CapExt]

/-- what a successful `generate` says about totals -/
theorem generated_total {b : Build} {rng : TransferRand} {inputs : List TransferNoteInput}
    {outputs : List RecordOpening} {pk : TransferProvingKey} {valid_until : U64} {extra : List Byte}
    {n : TransferNote} {sk : Fr} (gen : TransferNote.generate b rng inputs outputs pk valid_until extra = .ok (n, sk)) :
    total (inputs.map (·.ro)) = total outputs + n.aux_info.fee.val ∧ total (inputs.map (·.ro)) < 2 ^ 128 := by
  obtain ⟨-, -, -, -, -, -, -, hz, -⟩ := C40_generate gen
  have hr : total (real (inputs.map (·.ro))) = total (inputs.map (·.ro)) := by
    refine total_real (fun r hr hd => ?_)
    obtain ⟨i, hi, rfl⟩ := List.mem_map.1 hr
    exact hz i hi hd
  obtain ⟨w, pub, h⟩ := TransferNote.generate_ok.1 gen
  obtain ⟨s0, ss, o0', os', hf⟩ := fromWitness_ok.1 h.pub_eq
  obtain ⟨-, k2, -, k4⟩ := newUnchecked_ok.1 h.witness
  have hb := hf.balance
  have hlt := hf.bound
  rw [secrets_ro k4] at hb hlt
  rw [k2] at hb
  have hfee := fee_agree h.balance hb
  rw [← hfee, hr] at hb
  rw [hr] at hlt
  exact ⟨hb, hlt⟩

/-- **A native transfer conserves value.** -/
theorem C24_native {b : Build} {chg_blind : F} {rng : TransferRand} {inputs : List TransferNoteInput}
    {outputs : List RecordOpening} {fee : Amount} {valid_until : U64} {pk : TransferProvingKey} {n : TransferNote}
    {sk : Fr} {chg : RecordOpening}
    (gen : TransferNote.generateNative b chg_blind rng inputs outputs fee valid_until pk = .ok (n, sk, chg)) :
    -- value
    total (inputs.map (·.ro)) = total outputs + chg.amount.val + fee.val ∧
    -- every record is native, or a dummy without value
    (∀ i ∈ inputs, i.ro.asset_def = AssetDefinition.native ∨
      i.ro.asset_def = AssetDefinition.dummy ∧ i.ro.amount = 0) ∧
    (∀ o ∈ outputs, o.asset_def = AssetDefinition.native) ∧
    -- the change
    (∀ i ∈ inputs.head?, chg.pub_key = i.ro.pub_key) ∧ chg.asset_def = AssetDefinition.native ∧
    chg.freeze_flag = .unfrozen ∧ chg.blind = chg_blind ∧
    n.output_commitments = (chg :: outputs).map RecordOpening.commitment ∧
    -- the fee
    n.aux_info.fee = fee := by
  unfold TransferNote.generateNative at gen
  split at gen
  · cases gen
  · rename_i i0 is
    simp only [bind_ok_iff, safeSumOr_ok] at gen
    obtain ⟨_, hens, tin, htin, tout, htout, need, hneed, _, hge, ⟨n', sk'⟩, hgen, heq⟩ := gen
    cases heq
    rw [ensure_ok_iff] at hens
    simp only [Bool.not_eq_true', Bool.or_eq_false_iff, Bool.not_eq_false', List.any_eq_false,
      AssetDefinition.isNative_iff] at hens
    obtain ⟨⟨hn0, hns⟩, hno⟩ := hens
    have hnat : ∀ i ∈ i0 :: is, i.ro.asset_def = AssetDefinition.native ∨ i.ro.asset_def = AssetDefinition.dummy := by
      intro i hi
      rcases List.mem_cons.1 hi with rfl | hi
      · exact Or.inl hn0
      · have h := hns i hi
        by_cases hd : i.ro.asset_def = AssetDefinition.dummy
        · exact Or.inr hd
        · refine Or.inl (AssetDefinition.isNative_iff.1 ?_)
          by_contra hc
          refine h ⟨?_, by simpa using hc⟩
          rw [← Bool.not_eq_true, RecordOpening.isDummy_iff]
          exact hd
    have hg := C40_generate hgen
    obtain ⟨-, -, -, -, -, -, -, hz, -⟩ := hg
    have hr : total (real ((i0 :: is).map (·.ro))) = total ((i0 :: is).map (·.ro)) := by
      refine total_real (fun r hr hd => ?_)
      obtain ⟨i, hi, rfl⟩ := List.mem_map.1 hr
      exact hz i hi hd
    have htin' : total ((i0 :: is).map (·.ro)) = tin.val := by
      rw [← hr, ← htin, real_eq, List.filter_map, total, List.map_map, List.map_map]
      rfl
    have htout' : total outputs = tout.val := by rw [← htout, map_amount_val]
    obtain ⟨hb, hlt⟩ := generated_total hgen
    rw [total_cons] at hb
    have hchg : ((tin - tout - fee : Amount) : ℕ) =
        (2 ^ 128 - fee.val + (2 ^ 128 - tout.val + tin.val) % 2 ^ 128) % 2 ^ 128 := by
      rw [Fin.sub_def, Fin.sub_def]
    have hfee : n'.aux_info.fee = fee := by
      apply Fin.ext
      have h1 := n'.aux_info.fee.isLt
      have h2 := fee.isLt
      have h3 := tin.isLt
      have h4 := tout.isLt
      simp only [hchg, htin', htout'] at hb
      omega
    refine ⟨?_, ?_, ?_, ?_, rfl, rfl, rfl, ?_, hfee⟩
    · rw [hb, hfee]
      omega
    · intro i hi
      rcases hnat i hi with h | h
      · exact Or.inl h
      · exact Or.inr ⟨h, hz i hi h⟩
    · intro o ho
      have := hno o ho
      rw [Bool.not_eq_false, AssetDefinition.isNative_iff] at this
      exact this
    · intro i hi
      simp only [List.head?_cons, Option.mem_def, Option.some.injEq] at hi
      rw [← hi]
    · obtain ⟨w, pub, h⟩ := TransferNote.generate_ok.1 hgen
      obtain ⟨s0, ss, o0', os', hf⟩ := fromWitness_ok.1 h.pub_eq
      obtain ⟨-, k2, -, -⟩ := newUnchecked_ok.1 h.witness
      rw [h.commitments, hf.commitments, k2]

/-- **Overspending is refused**, also when `total_out + fee` wraps in a release build. -/
theorem C24_wrap {b : Build} {chg_blind : F} {rng : TransferRand} {inputs : List TransferNoteInput}
    {outputs : List RecordOpening} {fee : Amount} {valid_until : U64} {pk : TransferProvingKey}
    (over : total (inputs.map (·.ro)) < total outputs + fee.val) (r : TransferNote × Fr × RecordOpening) :
    TransferNote.generateNative b chg_blind rng inputs outputs fee valid_until pk ≠ .ok r := by
  obtain ⟨n, sk, chg⟩ := r
  intro h
  have := (C24_native h).1
  omega

/-- **No inputs: panic.** -/
theorem C24_empty (b : Build) (chg_blind : F) (rng : TransferRand) (outputs : List RecordOpening) (fee : Amount)
    (valid_until : U64) (pk : TransferProvingKey) :
    TransferNote.generateNative b chg_blind rng [] outputs fee valid_until pk = .error .panic := rfl

end Cap

namespace Cap.Examples

open Toy Spec

/-- Alice pays 60 to Bob with a fee of 3 and gets 37 back -/
example : TransferNote.generateNative .debug 46 rng natInputs natOutputs 3 800 natPk = .ok (natNote, natSk, natChg) :=
  natNote_eq

example : total natOutputs = 60 ∧ total (natInputs.map (·.ro)) = 100 := by decide +kernel

example : natChg.amount.val = 37 := by
  have h := (C24_native natNote_eq).1
  rw [show total natOutputs = 60 by decide +kernel, show total (natInputs.map (·.ro)) = 100 by decide +kernel,
    show ((3 : Amount) : ℕ) = 3 from rfl] at h
  omega

/-- in a release build a fee of `2^128 - 1` makes the unchecked sum wrap; nothing is generated -/
example : total (natInputs.map (·.ro)) < total natOutputs + ((2 ^ 128 - 1 : ℕ)) ∧
    (TransferNote.generateNative .release 46 rng natInputs natOutputs ⟨2 ^ 128 - 1, by norm_num⟩ 800 natPk).isOk = false ∧
    (addU128 .release 60 ⟨2 ^ 128 - 1, by norm_num⟩) = .ok 59 := by
  refine ⟨by decide +kernel, by decide +kernel, by decide +kernel⟩

end Cap.Examples
