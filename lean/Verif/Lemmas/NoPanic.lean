/-
Helper lemmas: which calls cannot panic.
-/
import Verif.Props.C25

namespace Cap

open Spec

/-- a sequence of two calls does not panic if neither does -/
theorem bind_ne_panic {α β : Type} {x : Res α} {f : α → Res β} (hx : x ≠ .error .panic)
    (hf : ∀ a, x = .ok a → f a ≠ .error .panic) : (x >>= f) ≠ .error .panic := by
  cases x with
  | ok a => exact hf a rfl
  | error e =>
    intro h
    rw [res_error_bind] at h
    exact hx (by rw [Except.error.inj h])

theorem ensure_ne_panic {c : Bool} {e : Err} (he : e ≠ .panic) : ensure c e ≠ .error .panic := by
  unfold ensure
  split
  · exact fun h => by cases h
  · exact fun h => he (Except.error.inj h)

theorem ok_ne_panic {α : Type} (a : α) : (.ok a : Res α) ≠ .error .panic := fun h => by cases h

theorem mapM_ne_panic {α β : Type} {f : α → Res β} : ∀ {l : List α}, (∀ a ∈ l, f a ≠ .error .panic) →
    l.mapM f ≠ .error .panic
  | [], _ => by
    rw [mapM_nil]
    exact ok_ne_panic _
  | a :: as, h => by
    rw [List.mapM_cons]
    refine bind_ne_panic (h a (by simp)) (fun b _ => bind_ne_panic ?_ (fun bs _ => ok_ne_panic _))
    exact mapM_ne_panic (fun x hx => h x (List.mem_cons_of_mem _ hx))

theorem safeSumOr_ne_panic (l : List Amount) : safeSumOr l ≠ .error .panic := by
  unfold safeSumOr
  split
  · exact ok_ne_panic _
  · exact fun h => by cases h

variable [E : CapEnv]

/-! ### the balance check -/

theorem sumI128_release {l : List ℤ} : ∀ {acc : ℤ}, sumI128 .release acc l ≠ .error .panic := by
  induction l with
  | nil => exact ok_ne_panic _
  | cons x xs ih =>
    intro acc
    rw [sumI128]
    refine bind_ne_panic ?_ (fun a _ => ih)
    unfold addI128 i128Res
    split <;> exact ok_ne_panic _

theorem i128Res_release (x : ℤ) : i128Res .release x ≠ .error .panic := by
  unfold i128Res
  split <;> exact ok_ne_panic _

theorem Balances.update_ne_panic {code : AssetCode} {upd : ℤ → Res ℤ} {ins : Res ℤ}
    (hu : ∀ v, upd v ≠ .error .panic) (hi : ins ≠ .error .panic) : ∀ m : Balances,
    m.update code upd ins ≠ .error .panic
  | [] => by
    rw [Balances.update]
    exact bind_ne_panic hi (fun _ _ => ok_ne_panic _)
  | (c, v) :: rest => by
    rw [Balances.update]
    split
    · exact bind_ne_panic (hu v) (fun _ _ => ok_ne_panic _)
    · exact bind_ne_panic (Balances.update_ne_panic hu hi rest) (fun _ _ => ok_ne_panic _)

theorem Balances.addInputs_release : ∀ (l : List RecordOpening) (m : Balances),
    Balances.addInputs .release l m ≠ .error .panic
  | [], m => ok_ne_panic _
  | r :: rs, m => by
    rw [Balances.addInputs]
    exact bind_ne_panic (Balances.update_ne_panic (fun v => i128Res_release _) (ok_ne_panic _) m)
      (fun m' _ => Balances.addInputs_release rs m')

theorem Balances.subOutputs_release : ∀ (l : List RecordOpening) (m : Balances),
    Balances.subOutputs .release l m ≠ .error .panic
  | [], m => ok_ne_panic _
  | r :: rs, m => by
    rw [Balances.subOutputs]
    exact bind_ne_panic (Balances.update_ne_panic (fun v => i128Res_release _) (i128Res_release _) m)
      (fun m' _ => Balances.subOutputs_release rs m')

/-- without overflow checks only empty lists make the check panic -/
theorem checkBalance_release {i0 o0 : RecordOpening} {is os : List RecordOpening} :
    checkBalance .release (i0 :: is) (o0 :: os) ≠ .error .panic := by
  unfold checkBalance deriveFee deriveFeeI128 checkAssetAmount
  refine bind_ne_panic (bind_ne_panic ?_ (fun x _ => ?_)) (fun fee _ => bind_ne_panic ?_ (fun _ _ => ok_ne_panic _))
  · split
    · exact bind_ne_panic sumI128_release (fun _ _ => bind_ne_panic sumI128_release (fun _ _ => i128Res_release _))
    · exact i128Res_release _
  · split
    · exact fun h => by cases h
    · exact ok_ne_panic _
  · refine bind_ne_panic (i128Res_release _) (fun nf _ => bind_ne_panic (Balances.addInputs_release _ _)
      (fun m _ => bind_ne_panic (Balances.subOutputs_release _ _) (fun m' _ => ensure_ne_panic (by decide))))

/-- with totals below `2^127` the check does not overflow -/
theorem checkBalance_ne_panic {b : Build} {i0 o0 : RecordOpening} {is os : List RecordOpening}
    (h0 : i0.asset_def ≠ AssetDefinition.dummy)
    (hd : ∀ r ∈ i0 :: is, r.asset_def = AssetDefinition.dummy → r.amount = 0)
    (hi : total (i0 :: is) < 2 ^ 127) (ho : total (o0 :: os) < 2 ^ 127) :
    checkBalance b (i0 :: is) (o0 :: os) ≠ .error .panic := by
  have hreal := total_real hd
  have hle : ∀ r ∈ i0 :: is, r.amount.val < 2 ^ 127 := by
    intro r hr
    have := amount_le_totalOf hr
    have h2 := totalOf_le_total r.asset_def.code (i0 :: is)
    omega
  have hleo : ∀ r ∈ o0 :: os, r.amount.val < 2 ^ 127 := by
    intro r hr
    have := amount_le_totalOf hr
    have h2 := totalOf_le_total r.asset_def.code (o0 :: os)
    omega
  -- the derived fee does not exceed what the inputs of the first record's asset carry
  have hderive : ∃ x : ℤ, deriveFeeI128 b (i0 :: is) (o0 :: os) = .ok x ∧
      x ≤ totalOf i0.asset_def.code (real (i0 :: is)) := by
    unfold deriveFeeI128
    by_cases hnat : isNativeXfr (i0 :: is) = true
    · rw [if_pos hnat]
      have s1 := sumI128_ok (b := b) (l := (i0 :: is).map (fun x => asI128 x.amount)) (acc := 0)
        (by
          intro x hx
          obtain ⟨r, hr, rfl⟩ := List.mem_map.1 hx
          rw [asI128_small (hle r hr)]
          omega) le_rfl (by rw [sum_amounts hle]; omega)
      have s2 := sumI128_ok (b := b) (l := (o0 :: os).map (fun x => asI128 x.amount)) (acc := 0)
        (by
          intro x hx
          obtain ⟨r, hr, rfl⟩ := List.mem_map.1 hx
          rw [asI128_small (hleo r hr)]
          omega) le_rfl (by rw [sum_amounts hleo]; omega)
      refine ⟨(total (i0 :: is) : ℤ) - total (o0 :: os), ?_, ?_⟩
      · rw [s1, s2, sum_amounts hle, sum_amounts hleo]
        simp only [bind, Except.bind, subI128, zero_add]
        exact i128Res_in (by omega) (by omega)
      · have h00 : i0.asset_def = AssetDefinition.native := by
          unfold isNativeXfr at hnat
          rw [List.all_eq_true] at hnat
          have h2 := hnat i0 (by simp)
          rw [Bool.or_eq_true, AssetDefinition.isNative_iff, AssetDefinition.isDummy_iff] at h2
          exact h2.resolve_right h0
        have : totalOf i0.asset_def.code (real (i0 :: is)) = total (i0 :: is) := by
          rw [totalOf_eq_total, hreal]
          intro r hr
          unfold real at hr
          rw [List.mem_filter, decide_eq_true_eq] at hr
          unfold isNativeXfr at hnat
          rw [List.all_eq_true] at hnat
          have h2 := hnat r hr.1
          rw [Bool.or_eq_true, AssetDefinition.isNative_iff, AssetDefinition.isDummy_iff] at h2
          rw [h2.resolve_right hr.2, h00]
        rw [this]
        omega
    · rw [if_neg hnat]
      have k1 := hle i0 (by simp)
      have k2 := hleo o0 (by simp)
      refine ⟨(i0.amount.val : ℤ) - o0.amount.val, ?_, ?_⟩
      · simp only [subI128, asI128_small k1, asI128_small k2]
        exact i128Res_in (by omega) (by omega)
      · have : i0 ∈ real (i0 :: is) := by
          rw [real_cons_of_ne h0]
          simp
        have := amount_le_totalOf this
        omega
  obtain ⟨x, hx, hxle⟩ := hderive
  unfold checkBalance deriveFee
  refine bind_ne_panic (bind_ne_panic (by rw [hx]; exact ok_ne_panic _) (fun y hy => ?_))
    (fun fee hfee => bind_ne_panic ?_ (fun _ _ => ok_ne_panic _))
  · split
    · exact fun h => by cases h
    · exact ok_ne_panic _
  · have hlt := deriveFee_lt (b := b) (inputs := i0 :: is) (outputs := o0 :: os) hfee
    have hfv : (fee.val : ℤ) = x := by
      rw [hx, res_ok_bind] at hfee
      split at hfee
      · cases hfee
      · rename_i hneg
        have hm := asU128_val (not_lt.1 hneg) (by
          have := totalOf_le_total i0.asset_def.code (real (i0 :: is))
          omega)
        rw [← hm, ← Except.ok.inj hfee]
    have hneg : negI128 b (asI128 fee) = .ok (-(fee.val : ℤ)) := by
      rw [negI128, asI128_small hlt]
      exact i128Res_in (by omega) (by omega)
    have hbal : ∀ c, Balances.bal [(i0.asset_def.code, -(fee.val : ℤ))] c =
        if i0.asset_def.code = c then -(fee.val : ℤ) else 0 := by
      intro c
      rw [Balances.bal_cons]
      simp [Balances.bal]
    obtain ⟨m1, e1, d1, b1⟩ := Balances.addInputs_exact (b := b) (l := real (i0 :: is))
      (m := [(i0.asset_def.code, -(fee.val : ℤ))]) (by simp [Balances.Distinct])
      (fun r hr => hle r (List.mem_of_mem_filter hr))
      (fun c => by rw [hbal]; split <;> omega)
      (fun c => by
        have := totalOf_le_total c (real (i0 :: is))
        rw [hbal]
        split <;> omega)
    obtain ⟨m2, e2, -, -⟩ := Balances.subOutputs_exact (b := b) (l := o0 :: os) (m := m1) d1 hleo
      (fun c => by
        have := totalOf_le_total c (real (i0 :: is))
        rw [b1, hbal]
        split <;> omega)
      (fun c => by
        have := totalOf_le_total c (o0 :: os)
        rw [b1, hbal]
        split
        · rename_i hc
          subst hc
          omega
        · omega)
    unfold checkAssetAmount
    dsimp only
    rw [hneg, res_ok_bind, ← real_eq, e1, res_ok_bind, e2, res_ok_bind]
    exact ensure_ne_panic (by decide)

end Cap
