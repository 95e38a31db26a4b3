/-
Helper lemmas: when the library's balance check is exact.
-/
import Verif.Lemmas.AssetDef

namespace Cap

open Spec

/-! ### exact updates -/

section
variable [E : CapEnv]

/-- an update that computes exactly -/
theorem Balances.update_eq {code : AssetCode} {upd : ℤ → Res ℤ} {ins : Res ℤ} {d : ℤ}
    (hu : ∀ v v', upd v = .ok v' → v' = v + d) (hi : ∀ v', ins = .ok v' → v' = d) :
    ∀ {m m' : Balances}, m.update code upd ins = .ok m' → ∀ c, m'.bal c = m.bal c + (if code = c then d else 0)
  | [], m', h, c => by
    simp only [Balances.update, bind_ok_iff] at h
    obtain ⟨v, hv, h⟩ := h
    cases h
    have := hi v hv
    rw [Balances.bal_cons]
    by_cases hc : code = c
    · simpa [hc, Balances.bal] using this
    · simp [hc, Balances.bal]
  | (k, v) :: rest, m', h, c => by
    simp only [Balances.update] at h
    split at h
    · rename_i hk
      rw [bind_ok_iff] at h
      obtain ⟨v', hv, h⟩ := h
      cases h
      rw [Balances.bal_cons, Balances.bal_cons]
      subst hk
      by_cases hc : k = c
      · simp only [hc, if_true]
        rw [hu v v' hv]
        ring
      · simp only [hc, if_false, zero_add, add_zero]
    · rw [bind_ok_iff] at h
      obtain ⟨r', hr, h⟩ := h
      cases h
      rw [Balances.bal_cons, Balances.bal_cons, Balances.update_eq hu hi hr c]
      ring

/-- an update that succeeds -/
theorem Balances.update_exact {code : AssetCode} {upd : ℤ → Res ℤ} {ins : Res ℤ} {d : ℤ} : ∀ {m : Balances},
    m.Distinct → upd (m.bal code) = .ok (m.bal code + d) → ins = .ok d →
    ∃ m', m.update code upd ins = .ok m' ∧ m'.Distinct ∧ ∀ c, m'.bal c = m.bal c + (if code = c then d else 0)
  | [], _, _, hi => by
    refine ⟨[(code, d)], ?_, ?_, ?_⟩
    · simp [Balances.update, hi, bind, Except.bind]
    · simp [Balances.Distinct]
    · intro c
      rw [Balances.bal_cons]
      simp [Balances.bal]
  | (k, v) :: rest, hd, hu, hi => by
    have hd' := hd
    unfold Balances.Distinct at hd'
    rw [List.map_cons, List.nodup_cons] at hd'
    rw [Balances.bal_cons] at hu
    by_cases hk : k = code
    · have hb : Balances.bal rest code = 0 := Balances.bal_absent (by rw [← hk]; exact hd'.1)
      simp only [hk, if_true, hb, add_zero] at hu
      have he : Balances.update code upd ins ((k, v) :: rest) = .ok ((k, v + d) :: rest) := by
        simp [Balances.update, hk, hu, bind, Except.bind]
      refine ⟨_, he, Balances.update_distinct he hd, ?_⟩
      intro c
      rw [Balances.bal_cons, Balances.bal_cons]
      by_cases hc : k = c
      · simp only [hc, if_true, ← hk]
        ring
      · have : ¬ code = c := by rw [← hk]; exact hc
        simp only [hc, this, if_false]
        ring
    · simp only [hk, if_false, zero_add] at hu
      obtain ⟨m', h1, h2, h3⟩ := Balances.update_exact (m := rest) hd'.2 hu hi
      have he : Balances.update code upd ins ((k, v) :: rest) = .ok ((k, v) :: m') := by
        simp [Balances.update, hk, h1, bind, Except.bind]
      refine ⟨_, he, Balances.update_distinct he hd, ?_⟩
      intro c
      rw [Balances.bal_cons, Balances.bal_cons, h3 c]
      ring

theorem totalOf_cons (c : AssetCode) (r : RecordOpening) (l : List RecordOpening) :
    totalOf c (r :: l) = (if r.asset_def.code = c then r.amount.val else 0) + totalOf c l := by
  unfold totalOf
  by_cases h : r.asset_def.code = c <;> simp [h]

theorem total_cons (r : RecordOpening) (l : List RecordOpening) : total (r :: l) = r.amount.val + total l := by
  simp [total]

theorem amount_le_totalOf {r : RecordOpening} {l : List RecordOpening} (h : r ∈ l) :
    r.amount.val ≤ totalOf r.asset_def.code l := by
  induction l with
  | nil => cases h
  | cons x l ih =>
    rw [totalOf_cons]
    rcases List.mem_cons.1 h with rfl | h
    · simp
    · have := ih h
      omega

/-- adding the inputs does not overflow and is exact -/
theorem Balances.addInputs_exact {b : Build} : ∀ {l : List RecordOpening} {m : Balances}, m.Distinct →
    (∀ r ∈ l, r.amount.val < 2 ^ 127) → (∀ c, -(2 ^ 127) ≤ m.bal c) → (∀ c, m.bal c + totalOf c l < 2 ^ 127) →
    ∃ m', Balances.addInputs b l m = .ok m' ∧ m'.Distinct ∧ ∀ c, m'.bal c = m.bal c + (totalOf c l : ℤ)
  | [], m, hd, _, _, _ => ⟨m, rfl, hd, by simp [totalOf]⟩
  | r :: rs, m, hd, ha, h1, h2 => by
    have hr := ha r (by simp)
    have hs := asI128_small hr
    have hb2 := h2 r.asset_def.code
    rw [totalOf_cons, if_pos rfl] at hb2
    push_cast at hb2
    have hb1 := h1 r.asset_def.code
    obtain ⟨m', e1, e2, e3⟩ := Balances.update_exact (code := r.asset_def.code) (d := (r.amount.val : ℤ))
      (upd := fun x => addI128 b x (asI128 r.amount)) (ins := .ok (asI128 r.amount)) hd
      (by simp only [addI128, hs]; exact i128Res_in (by omega) (by omega)) (by rw [hs])
    obtain ⟨m'', f1, f2, f3⟩ := Balances.addInputs_exact (b := b) (l := rs) e2
      (fun x hx => ha x (List.mem_cons_of_mem _ hx))
      (by
        intro c
        rw [e3]
        have := h1 c
        split <;> omega)
      (by
        intro c
        have := h2 c
        rw [totalOf_cons] at this
        push_cast at this
        rw [e3]
        omega)
    refine ⟨m'', ?_, f2, ?_⟩
    · simp only [Balances.addInputs, e1, bind, Except.bind, f1]
    · intro c
      rw [f3, e3, totalOf_cons]
      push_cast
      ring

/-- subtracting the outputs does not overflow and is exact -/
theorem Balances.subOutputs_exact {b : Build} : ∀ {l : List RecordOpening} {m : Balances}, m.Distinct →
    (∀ r ∈ l, r.amount.val < 2 ^ 127) → (∀ c, m.bal c < 2 ^ 127) → (∀ c, -(2 ^ 127) ≤ m.bal c - totalOf c l) →
    ∃ m', Balances.subOutputs b l m = .ok m' ∧ m'.Distinct ∧ ∀ c, m'.bal c = m.bal c - (totalOf c l : ℤ)
  | [], m, hd, _, _, _ => ⟨m, rfl, hd, by simp [totalOf]⟩
  | r :: rs, m, hd, ha, h1, h2 => by
    have hr := ha r (by simp)
    have hs := asI128_small hr
    have hb2 := h2 r.asset_def.code
    rw [totalOf_cons, if_pos rfl] at hb2
    push_cast at hb2
    have hb1 := h1 r.asset_def.code
    obtain ⟨m', e1, e2, e3⟩ := Balances.update_exact (code := r.asset_def.code) (d := -(r.amount.val : ℤ))
      (upd := fun x => subI128 b x (asI128 r.amount)) (ins := negI128 b (asI128 r.amount)) hd
      (by simp only [subI128, hs, sub_eq_add_neg]; exact i128Res_in (by omega) (by omega))
      (by simp only [negI128, hs]; exact i128Res_in (by omega) (by omega))
    obtain ⟨m'', f1, f2, f3⟩ := Balances.subOutputs_exact (b := b) (l := rs) e2
      (fun x hx => ha x (List.mem_cons_of_mem _ hx))
      (by
        intro c
        rw [e3]
        have := h1 c
        split <;> omega)
      (by
        intro c
        have := h2 c
        rw [totalOf_cons] at this
        push_cast at this
        rw [e3]
        split <;> rename_i hc <;> simp only [hc, if_true, if_false] at this <;> push_cast at this <;> omega)
    refine ⟨m'', ?_, f2, ?_⟩
    · simp only [Balances.subOutputs, e1, bind, Except.bind, f1]
    · intro c
      rw [f3, e3, totalOf_cons]
      push_cast
      split <;> ring

/-- debug builds compute exactly -/
theorem Balances.addInputs_debug : ∀ {l : List RecordOpening} {m m' : Balances}, (∀ r ∈ l, r.amount.val < 2 ^ 127) →
    Balances.addInputs .debug l m = .ok m' → ∀ c, m'.bal c = m.bal c + (totalOf c l : ℤ)
  | [], m, m', _, h, c => by cases h; simp [totalOf]
  | r :: rs, m, m', ha, h, c => by
    simp only [Balances.addInputs, bind_ok_iff] at h
    obtain ⟨m1, h1, h2⟩ := h
    have hs := asI128_small (ha r (by simp))
    have e := Balances.update_eq (d := (r.amount.val : ℤ))
      (fun v v' hv => (i128Res_debug hv).trans (by rw [hs])) (fun v' hv => by rw [← Except.ok.inj hv, hs]) h1 c
    rw [Balances.addInputs_debug (fun x hx => ha x (List.mem_cons_of_mem _ hx)) h2 c, e, totalOf_cons]
    push_cast
    ring

theorem Balances.subOutputs_debug : ∀ {l : List RecordOpening} {m m' : Balances}, (∀ r ∈ l, r.amount.val < 2 ^ 127) →
    Balances.subOutputs .debug l m = .ok m' → ∀ c, m'.bal c = m.bal c - (totalOf c l : ℤ)
  | [], m, m', _, h, c => by cases h; simp [totalOf]
  | r :: rs, m, m', ha, h, c => by
    simp only [Balances.subOutputs, bind_ok_iff] at h
    obtain ⟨m1, h1, h2⟩ := h
    have hs := asI128_small (ha r (by simp))
    have e := Balances.update_eq (d := -(r.amount.val : ℤ))
      (fun v v' hv => (i128Res_debug hv).trans (by rw [hs]; ring)) (fun v' hv => by rw [i128Res_debug hv, hs]) h1 c
    rw [Balances.subOutputs_debug (fun x hx => ha x (List.mem_cons_of_mem _ hx)) h2 c, e, totalOf_cons]
    push_cast
    split <;> ring

/-! ### the fee -/

theorem i128Res_lt {b : Build} {x y : ℤ} (h : i128Res b x = .ok y) : y < 2 ^ 127 := by
  unfold i128Res at h
  split at h
  · rename_i hx; cases h; exact hx.2
  · cases b with
    | debug => cases h
    | release =>
      cases h
      have := Int.bmod_lt (x := x) (m := 2 ^ 128) (by norm_num)
      norm_num at this ⊢
      omega

theorem asU128_val {x : ℤ} (h0 : 0 ≤ x) (h : x < 2 ^ 127) : ((asU128 x).val : ℤ) = x := by
  unfold asU128
  rw [Int.emod_eq_of_lt h0 (by omega)]
  simp only [Fin.val_ofNat]
  rw [Nat.mod_eq_of_lt (by omega)]
  omega

/-- the derived fee is always below `2^127` -/
theorem deriveFee_lt {b : Build} {inputs outputs : List RecordOpening} {fee : Amount}
    (h : deriveFee b inputs outputs = .ok fee) : fee.val < 2 ^ 127 := by
  simp only [deriveFee, bind_ok_iff] at h
  obtain ⟨x, hx, h⟩ := h
  have hlt : x < 2 ^ 127 := by
    unfold deriveFeeI128 at hx
    split at hx
    · simp only [bind_ok_iff] at hx
      obtain ⟨s, -, t, -, hx⟩ := hx
      exact i128Res_lt hx
    · split at hx
      · exact i128Res_lt hx
      · cases hx
  split at h
  · cases h
  · rename_i h0
    rw [← Except.ok.inj h]
    have := asU128_val (not_lt.1 h0) hlt
    omega

/-! ### the check -/

/-- in a debug build the check is exact for amounts below `2^127` -/
theorem checkBalance_debug {inputs outputs : List RecordOpening} {fee : Amount}
    (hi : ∀ r ∈ inputs, r.amount.val < 2 ^ 127) (ho : ∀ r ∈ outputs, r.amount.val < 2 ^ 127)
    (h : checkBalance .debug inputs outputs = .ok fee) : Balanced inputs outputs fee := by
  simp only [checkBalance, bind_ok_iff] at h
  obtain ⟨f, hfee, u, h, hf⟩ := h
  cases hf
  have hlt := deriveFee_lt hfee
  unfold checkAssetAmount at h
  cases inputs with
  | nil => cases h
  | cons i0 is =>
    refine ⟨i0, is, rfl, fun c => ?_⟩
    simp only [bind_ok_iff, ensure_ok_iff, List.all_eq_true, decide_eq_true_eq] at h
    obtain ⟨nf, hnf, m1, h1, m2, h2, h3⟩ := h
    rw [real_eq]
    have e1 := Balances.addInputs_debug (fun r hr => hi r (List.mem_of_mem_filter hr)) h1 c
    have e2 := Balances.subOutputs_debug ho h2 c
    rw [Balances.bal_zero h3 c] at e2
    have e0 : nf = -(fee.val : ℤ) := by rw [i128Res_debug hnf, asI128_small hlt]
    rw [Balances.bal_cons] at e1
    simp only [Balances.bal, List.filter_nil, List.map_nil, List.sum_nil, add_zero] at e1
    by_cases hc : c = i0.asset_def.code
    · rw [if_pos hc.symm] at e1
      rw [if_pos hc]
      simp only [Balances.bal] at e2
      omega
    · rw [if_neg (fun h => hc h.symm)] at e1
      rw [if_neg hc]
      simp only [Balances.bal] at e2
      omega

/-- in every build the check is sound when the totals per asset are small -/
theorem checkBalance_small {b : Build} {inputs outputs : List RecordOpening} {fee : Amount}
    (hi : ∀ c, totalOf c (real inputs) < 2 ^ 128) (ho : ∀ c, totalOf c outputs < 2 ^ 127)
    (h : checkBalance b inputs outputs = .ok fee) : Balanced inputs outputs fee := by
  have hlt : fee.val < 2 ^ 127 := by
    simp only [checkBalance, bind_ok_iff] at h
    obtain ⟨f, hfee, u, -, hf⟩ := h
    cases hf
    exact deriveFee_lt hfee
  obtain ⟨i0, is, he, hm⟩ := checkBalance_modEq h
  refine ⟨i0, is, he, fun c => ?_⟩
  have h1 := hm c
  have h2 := hi c
  have h3 := ho c
  unfold Int.ModEq at h1
  by_cases hc : c = i0.asset_def.code
  · rw [if_pos hc] at h1 ⊢
    rw [Int.emod_eq_of_lt (by omega) (by omega), Int.emod_eq_of_lt (by omega) (by omega)] at h1
    omega
  · rw [if_neg hc] at h1 ⊢
    rw [Int.emod_eq_of_lt (by omega) (by omega), Int.emod_eq_of_lt (by omega) (by omega)] at h1
    omega

/-- with the whole total below `2^128` -/
theorem checkBalance_total {b : Build} {inputs outputs : List RecordOpening} {fee : Amount}
    (ht : total (real inputs) = total outputs + fee.val) (hb : total (real inputs) < 2 ^ 128)
    (h : checkBalance b inputs outputs = .ok fee) : Balanced inputs outputs fee := by
  obtain ⟨i0, is, he, hm⟩ := checkBalance_modEq h
  refine ⟨i0, is, he, fun c => ?_⟩
  have h1 := hm c
  have h2 := totalOf_le_total c (real inputs)
  have h3 := totalOf_le_total c outputs
  unfold Int.ModEq at h1
  by_cases hc : c = i0.asset_def.code
  · rw [if_pos hc] at h1 ⊢
    rw [Int.emod_eq_of_lt (by omega) (by omega), Int.emod_eq_of_lt (by omega) (by omega)] at h1
    omega
  · rw [if_neg hc] at h1 ⊢
    rw [Int.emod_eq_of_lt (by omega) (by omega), Int.emod_eq_of_lt (by omega) (by omega)] at h1
    omega

/-! ### completeness -/

theorem real_cons_of_ne {r : RecordOpening} (h : r.asset_def ≠ AssetDefinition.dummy) (l : List RecordOpening) :
    real (r :: l) = r :: real l := by
  unfold real
  rw [List.filter_cons_of_pos (by simpa using h)]

/-- dummies of amount zero do not count -/
theorem total_real {l : List RecordOpening} (h : ∀ r ∈ l, r.asset_def = AssetDefinition.dummy → r.amount = 0) :
    total (real l) = total l := by
  induction l with
  | nil => rfl
  | cons r l ih =>
    have ih' := ih (fun x hx => h x (List.mem_cons_of_mem _ hx))
    by_cases hd : r.asset_def = AssetDefinition.dummy
    · have h0 := h r (by simp) hd
      unfold real at ih' ⊢
      rw [List.filter_cons_of_neg (by simpa using hd), ih', total_cons, h0]
      simp
    · rw [real_cons_of_ne hd, total_cons, total_cons, ih']

theorem totalOf_eq_total {c : AssetCode} {l : List RecordOpening} (h : ∀ r ∈ l, r.asset_def.code = c) :
    totalOf c l = total l := by
  unfold totalOf total
  rw [List.filter_eq_self.2 (fun r hr => by simpa using h r hr)]

theorem totalOf_eq_zero {c : AssetCode} {l : List RecordOpening} (h : ∀ r ∈ l, r.asset_def.code ≠ c) :
    totalOf c l = 0 := by
  unfold totalOf
  rw [List.filter_eq_nil_iff.2 (fun r hr => by simpa using h r hr)]
  rfl

theorem sum_amounts {l : List RecordOpening} (h : ∀ r ∈ l, r.amount.val < 2 ^ 127) :
    (l.map (fun x => asI128 x.amount)).sum = (total l : ℤ) := by
  induction l with
  | nil => rfl
  | cons r l ih =>
    rw [List.map_cons, List.sum_cons, ih (fun x hx => h x (List.mem_cons_of_mem _ hx)), total_cons,
      asI128_small (h r (by simp))]
    push_cast
    rfl

/-- conditions under which the check accepts a list that balances -/
theorem checkBalance_complete (b : Build) {ad : AssetDefinition} {inputs outputs : List RecordOpening} {fee : Amount}
    (ha : AssetsOk ad inputs outputs) (hn : ad = AssetDefinition.native ∨ ad.code ≠ nativeCode)
    (hd : ∀ r ∈ inputs, r.asset_def = AssetDefinition.dummy → r.amount = 0)
    (hb : Balanced inputs outputs fee) (hlt : total (real inputs) < 2 ^ 127) :
    checkBalance b inputs outputs = .ok fee := by
  obtain ⟨i0, is, hi, hi0⟩ := ha.fee_in
  obtain ⟨o0, os, ho, ho0⟩ := ha.fee_out
  subst hi ho
  obtain ⟨i0', is', he, hbal⟩ := hb
  cases he
  have hi0d : i0.asset_def ≠ AssetDefinition.dummy := by rw [hi0]; exact nativeDef_ne_dummyDef
  have hreal := total_real hd
  have hle : ∀ r ∈ i0 :: is, r.amount.val < 2 ^ 127 := by
    intro r hr
    have := amount_le_totalOf hr
    have h2 := totalOf_le_total r.asset_def.code (i0 :: is)
    omega
  have hcode0 : i0.asset_def.code = nativeCode := by rw [hi0]; rfl
  -- the outputs are small too
  have hout : ∀ c, totalOf c (o0 :: os) ≤ totalOf c (real (i0 :: is)) := by
    intro c
    have := hbal c
    omega
  have hleo : ∀ r ∈ o0 :: os, r.amount.val < 2 ^ 127 := by
    intro r hr
    have h1 := amount_le_totalOf hr
    have h2 := hout r.asset_def.code
    have h3 := totalOf_le_total r.asset_def.code (real (i0 :: is))
    omega
  have hfee : fee.val < 2 ^ 127 := by
    have h1 := hbal i0.asset_def.code
    rw [if_pos rfl] at h1
    have h3 := totalOf_le_total i0.asset_def.code (real (i0 :: is))
    omega
  -- the derived fee
  have hderive : deriveFeeI128 b (i0 :: is) (o0 :: os) = .ok (fee.val : ℤ) := by
    unfold deriveFeeI128
    by_cases hnat : isNativeXfr (i0 :: is) = true
    · rw [if_pos hnat]
      have hadn : ad = AssetDefinition.native := by
        by_contra hne
        refine hne (ha.none (fun r hr => ?_))
        have h1 := ha.ins r hr
        rcases h1 with h1 | h1
        · exact h1
        · exfalso
          unfold isNativeXfr at hnat
          rw [List.all_eq_true] at hnat
          have h2 := hnat r (List.mem_cons_of_mem _ hr)
          rw [Bool.or_eq_true, AssetDefinition.isNative_iff, AssetDefinition.isDummy_iff, h1] at h2
          rcases h2 with h2 | h2
          · exact hne h2
          · exact ha.not_dummy h2
      have ht1 : totalOf nativeCode (real (i0 :: is)) = total (i0 :: is) := by
        rw [totalOf_eq_total, hreal]
        intro r hr
        unfold real at hr
        rw [List.mem_filter, decide_eq_true_eq] at hr
        rcases List.mem_cons.1 hr.1 with rfl | h
        · exact hcode0
        · rcases ha.ins r h with h1 | h1
          · exact absurd h1 hr.2
          · rw [h1, hadn]; rfl
      have ht2 : totalOf nativeCode (o0 :: os) = total (o0 :: os) := by
        rw [totalOf_eq_total]
        intro r hr
        rcases List.mem_cons.1 hr with rfl | h
        · rw [ho0]; rfl
        · rw [ha.outs r h, hadn]; rfl
      have hbn := hbal nativeCode
      rw [if_pos hcode0.symm, ht1, ht2] at hbn
      have s1 := sumI128_ok (b := b) (l := (i0 :: is).map (fun x => asI128 x.amount)) (acc := 0)
        (by
          intro x hx
          obtain ⟨r, hr, rfl⟩ := List.mem_map.1 hx
          rw [asI128_small (hle r hr)]
          omega) le_rfl (by rw [sum_amounts hle]; omega)
      have s2 := sumI128_ok (b := b) (l := (o0 :: os).map (fun x => asI128 x.amount)) (acc := 0)
        (by
          intro x hx
          obtain ⟨r, hr, rfl⟩ := List.mem_map.1 hx
          rw [asI128_small (hleo r hr)]
          omega) le_rfl (by rw [sum_amounts hleo]; omega)
      rw [s1, s2, sum_amounts hle, sum_amounts hleo]
      simp only [bind, Except.bind, subI128]
      rw [i128Res_in (by omega) (by omega)]
      refine congrArg Except.ok ?_
      omega
    · rw [if_neg hnat]
      have hadn : ad ≠ AssetDefinition.native := by
        intro hadn
        apply hnat
        unfold isNativeXfr
        rw [List.all_eq_true]
        intro r hr
        rw [Bool.or_eq_true, AssetDefinition.isNative_iff, AssetDefinition.isDummy_iff]
        rcases List.mem_cons.1 hr with rfl | h
        · exact Or.inl hi0
        · rcases ha.ins r h with h1 | h1
          · exact Or.inr h1
          · exact Or.inl (h1.trans hadn)
      have hne := hn.resolve_left hadn
      have ht1 : totalOf nativeCode (real (i0 :: is)) = i0.amount.val := by
        rw [real_cons_of_ne hi0d, totalOf_cons, if_pos hcode0, totalOf_eq_zero, add_zero]
        intro r hr
        unfold real at hr
        rw [List.mem_filter, decide_eq_true_eq] at hr
        rcases ha.ins r hr.1 with h1 | h1
        · exact absurd h1 hr.2
        · rw [h1]; exact hne
      have ht2 : totalOf nativeCode (o0 :: os) = o0.amount.val := by
        rw [totalOf_cons, if_pos (by rw [ho0]; rfl), totalOf_eq_zero, add_zero]
        intro r hr
        rw [ha.outs r hr]; exact hne
      have hbn := hbal nativeCode
      rw [if_pos hcode0.symm, ht1, ht2] at hbn
      have h1 := hle i0 (by simp)
      simp only [subI128]
      rw [asI128_small h1, asI128_small (hleo o0 (by simp)), i128Res_in (by omega) (by omega)]
      refine congrArg Except.ok ?_
      omega
  have hd1 : deriveFee b (i0 :: is) (o0 :: os) = .ok fee := by
    unfold deriveFee
    rw [hderive]
    simp only [bind, Except.bind]
    rw [if_neg (by omega)]
    refine congrArg Except.ok (Fin.ext ?_)
    have := asU128_val (x := (fee.val : ℤ)) (by omega) (by omega)
    omega
  -- the balances
  have hfilter : ((i0 :: is).filter (fun r => !r.asset_def.isDummy)) = real (i0 :: is) := (real_eq _).symm
  have hnf : negI128 b (asI128 fee) = .ok (-(fee.val : ℤ)) := by
    unfold negI128
    rw [asI128_small hfee, i128Res_in (by omega) (by omega)]
  have hbal0 : ∀ c, Balances.bal [(i0.asset_def.code, -(fee.val : ℤ))] c =
      if i0.asset_def.code = c then -(fee.val : ℤ) else 0 := by
    intro c
    rw [Balances.bal_cons]
    simp [Balances.bal]
  obtain ⟨m1, e1, e2, e3⟩ := Balances.addInputs_exact (b := b) (l := real (i0 :: is))
    (m := [(i0.asset_def.code, -(fee.val : ℤ))]) (by simp [Balances.Distinct])
    (by
      intro r hr
      unfold real at hr
      exact hle r (List.mem_of_mem_filter hr))
    (by intro c; rw [hbal0]; split <;> omega)
    (by
      intro c
      have := totalOf_le_total c (real (i0 :: is))
      rw [hbal0]; split <;> omega)
  obtain ⟨m2, f1, f2, f3⟩ := Balances.subOutputs_exact (b := b) (l := o0 :: os) e2 hleo
    (by
      intro c
      have := totalOf_le_total c (real (i0 :: is))
      rw [e3, hbal0]; split <;> omega)
    (by
      intro c
      have h1 := hbal c
      rw [e3, hbal0]
      split <;> rename_i hc
      · rw [if_pos hc.symm] at h1; omega
      · rw [if_neg (fun h => hc h.symm)] at h1; omega)
  have hz : ∀ x ∈ m2, x.2 = 0 := by
    apply Balances.zero_of_bal f2
    intro c
    have h1 := hbal c
    rw [f3, e3, hbal0]
    split <;> rename_i hc
    · rw [if_pos hc.symm] at h1; omega
    · rw [if_neg (fun h => hc h.symm)] at h1; omega
  have hca : checkAssetAmount b (i0 :: is) (o0 :: os) fee = .ok () := by
    unfold checkAssetAmount
    simp only [bind_ok_iff, ensure_ok_iff, hfilter]
    refine ⟨_, hnf, m1, e1, m2, f1, ?_⟩
    rw [List.all_eq_true]
    intro x hx
    exact decide_eq_true (hz x hx)
  simp only [checkBalance, bind_ok_iff]
  exact ⟨fee, hd1, (), hca, rfl⟩

end

end Cap
