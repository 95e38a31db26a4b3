/-
Helper lemmas: the library's balance check (`i128` arithmetic).
-/
import Verif.Lemmas.Generate
import Verif.Spec
import Mathlib.Data.Int.ModEq
import Mathlib.Data.List.Nodup

namespace Cap

/-! ### `i128` -/

theorem bmod_modEq (x : ℤ) (n : ℕ) : Int.bmod x n ≡ x [ZMOD n] := by
  unfold Int.ModEq
  exact Int.bmod_emod

theorem cast_two_pow : ((2 ^ 128 : ℕ) : ℤ) = 2 ^ 128 := by norm_num

theorem bmod_modEq_128 (x : ℤ) : Int.bmod x (2 ^ 128) ≡ x [ZMOD 2 ^ 128] := by
  have := bmod_modEq x (2 ^ 128)
  rw [cast_two_pow] at this
  exact this

theorem asI128_modEq (a : Amount) : asI128 a ≡ (a.val : ℤ) [ZMOD 2 ^ 128] := bmod_modEq_128 _

theorem asI128_small {a : Amount} (h : a.val < 2 ^ 127) : asI128 a = (a.val : ℤ) := by
  unfold asI128
  apply Int.bmod_eq_of_le
  · have : (0 : ℤ) ≤ a.val := Int.natCast_nonneg _
    norm_num
  · norm_num
    norm_num at h
    omega

theorem i128Res_modEq {b : Build} {x y : ℤ} (h : i128Res b x = .ok y) : y ≡ x [ZMOD 2 ^ 128] := by
  unfold i128Res at h
  split at h
  · cases h; rfl
  · cases b with
    | debug => cases h
    | release =>
      cases h
      exact bmod_modEq_128 x

theorem i128Res_debug {x y : ℤ} (h : i128Res .debug x = .ok y) : y = x := by
  unfold i128Res at h
  split at h
  · cases h; rfl
  · cases h

theorem i128Res_in {b : Build} {x : ℤ} (h1 : -(2 ^ 127) ≤ x) (h2 : x < 2 ^ 127) : i128Res b x = .ok x := by
  unfold i128Res
  rw [if_pos ⟨h1, h2⟩]

theorem sumI128_modEq {b : Build} : ∀ {l : List ℤ} {acc y : ℤ},
    sumI128 b acc l = .ok y → y ≡ acc + l.sum [ZMOD 2 ^ 128]
  | [], acc, y, h => by cases h; simp
  | x :: xs, acc, y, h => by
    simp only [sumI128, bind_ok_iff] at h
    obtain ⟨a, ha, h⟩ := h
    have h1 := i128Res_modEq ha
    have h2 := sumI128_modEq h
    refine h2.trans ?_
    rw [List.sum_cons, ← add_assoc]
    exact h1.add_right _

theorem sumI128_debug : ∀ {l : List ℤ} {acc y : ℤ}, sumI128 .debug acc l = .ok y → y = acc + l.sum
  | [], acc, y, h => by cases h; simp
  | x :: xs, acc, y, h => by
    simp only [sumI128, bind_ok_iff] at h
    obtain ⟨a, ha, h⟩ := h
    rw [sumI128_debug h, i128Res_debug ha, List.sum_cons]
    ring

theorem sumI128_ok {b : Build} : ∀ {l : List ℤ} {acc : ℤ}, (∀ x ∈ l, 0 ≤ x) → 0 ≤ acc →
    acc + l.sum < 2 ^ 127 → sumI128 b acc l = .ok (acc + l.sum)
  | [], acc, _, _, _ => by simp [sumI128]
  | x :: xs, acc, hx, h0, h => by
    have hx0 : 0 ≤ x := hx x (by simp)
    have hs : 0 ≤ xs.sum := List.sum_nonneg (fun y hy => hx y (by simp [hy]))
    rw [List.sum_cons] at h ⊢
    simp only [sumI128, addI128]
    rw [i128Res_in (by omega) (by omega)]
    simp only [bind, Except.bind]
    rw [sumI128_ok (fun y hy => hx y (by simp [hy])) (by omega) (by omega)]
    congr 1
    ring

theorem asU128_modEq (x : ℤ) : ((asU128 x).val : ℤ) ≡ x [ZMOD 2 ^ 128] := by
  unfold asU128
  have h0 : 0 ≤ x % 2 ^ 128 := Int.emod_nonneg _ (by norm_num)
  have h1 : x % 2 ^ 128 < 2 ^ 128 := Int.emod_lt_of_pos _ (by norm_num)
  have : ((Fin.ofNat (2 ^ 128) (x % 2 ^ 128).toNat).val : ℤ) = x % 2 ^ 128 := by
    simp only [Fin.val_ofNat]
    rw [Nat.mod_eq_of_lt (by omega)]
    omega
  rw [this]
  exact Int.mod_modEq _ _

theorem amount_eq_of_modEq {a b : Amount} (h : (a.val : ℤ) ≡ b.val [ZMOD 2 ^ 128]) : a = b := by
  have ha := a.isLt
  have hb := b.isLt
  unfold Int.ModEq at h
  rw [Int.emod_eq_of_lt (by omega) (by norm_num at ha ⊢; omega),
    Int.emod_eq_of_lt (by omega) (by norm_num at hb ⊢; omega)] at h
  exact Fin.ext (by exact_mod_cast h)

/-! ### the balance map -/

section
variable [E : CapEnv]

/-- the value of a code in the map -/
def Balances.bal (m : Balances) (c : AssetCode) : ℤ := ((m.filter (fun x => x.1 = c)).map Prod.snd).sum

/-- the keys of the map are distinct -/
def Balances.Distinct (m : Balances) : Prop := (m.map Prod.fst).Nodup

theorem Balances.bal_cons (x : AssetCode × ℤ) (m : Balances) (c : AssetCode) :
    Balances.bal (x :: m) c = (if x.1 = c then x.2 else 0) + Balances.bal m c := by
  unfold Balances.bal
  by_cases h : x.1 = c <;> simp [h]

theorem Balances.bal_absent {m : Balances} {c : AssetCode} (h : c ∉ m.map Prod.fst) : m.bal c = 0 := by
  induction m with
  | nil => rfl
  | cons x m ih =>
    rw [Balances.bal_cons]
    simp only [List.map_cons, List.mem_cons, not_or] at h
    rw [if_neg (fun h' => h.1 h'.symm), ih h.2, add_zero]

theorem Balances.bal_zero {m : Balances} (h : ∀ x ∈ m, x.2 = 0) (c : AssetCode) : m.bal c = 0 := by
  induction m with
  | nil => rfl
  | cons x m ih =>
    rw [Balances.bal_cons, ih (fun y hy => h y (by simp [hy])), h x (by simp)]
    simp

theorem Balances.zero_of_bal {m : Balances} (hd : m.Distinct) (h : ∀ c, m.bal c = 0) : ∀ x ∈ m, x.2 = 0 := by
  induction m with
  | nil => simp
  | cons y m ih =>
    unfold Balances.Distinct at hd
    rw [List.map_cons, List.nodup_cons] at hd
    have hy : y.2 = 0 := by
      have := h y.1
      rw [Balances.bal_cons, if_pos rfl, Balances.bal_absent hd.1, add_zero] at this
      exact this
    intro x hx
    rcases List.mem_cons.1 hx with rfl | hx
    · exact hy
    · refine ih hd.2 (fun c => ?_) x hx
      have := h c
      rw [Balances.bal_cons, hy] at this
      simpa using this

/-- keys after an update -/
theorem Balances.update_keys {code : AssetCode} {upd : ℤ → Res ℤ} {ins : Res ℤ} : ∀ {m m' : Balances},
    m.update code upd ins = .ok m' →
      m'.map Prod.fst = if code ∈ m.map Prod.fst then m.map Prod.fst else m.map Prod.fst ++ [code]
  | [], m', h => by
    simp only [Balances.update, bind_ok_iff] at h
    obtain ⟨v, -, h⟩ := h
    cases h
    simp
  | (c, v) :: rest, m', h => by
    simp only [Balances.update] at h
    split at h
    · rename_i hc
      rw [bind_ok_iff] at h
      obtain ⟨v', -, h⟩ := h
      cases h
      simp [hc]
    · rename_i hc
      rw [bind_ok_iff] at h
      obtain ⟨r', hr, h⟩ := h
      cases h
      have ih := Balances.update_keys hr
      simp only [List.map_cons, List.mem_cons, ih]
      have hc' : ¬ code = c := fun h => hc h.symm
      by_cases hm : code ∈ rest.map Prod.fst
      · simp [hm]
      · rw [if_neg hm, if_neg (by simp only [hc', hm, or_self, not_false_eq_true])]
        rfl

theorem Balances.update_distinct {code : AssetCode} {upd : ℤ → Res ℤ} {ins : Res ℤ} {m m' : Balances}
    (h : m.update code upd ins = .ok m') (hd : m.Distinct) : m'.Distinct := by
  unfold Balances.Distinct at *
  rw [Balances.update_keys h]
  split
  · exact hd
  · rename_i hc
    exact List.Nodup.append hd (by simp) (by simpa using hc)

/-- effect of an update on the values, up to a relation `R` compatible with adding -/
theorem Balances.update_modEq {code : AssetCode} {upd : ℤ → Res ℤ} {ins : Res ℤ} {d : ℤ}
    (hu : ∀ v v', upd v = .ok v' → v' ≡ v + d [ZMOD 2 ^ 128]) (hi : ∀ v', ins = .ok v' → v' ≡ d [ZMOD 2 ^ 128]) :
    ∀ {m m' : Balances}, m.update code upd ins = .ok m' →
      ∀ c, m'.bal c ≡ m.bal c + (if code = c then d else 0) [ZMOD 2 ^ 128]
  | [], m', h, c => by
    simp only [Balances.update, bind_ok_iff] at h
    obtain ⟨v, hv, h⟩ := h
    cases h
    have := hi v hv
    rw [Balances.bal_cons]
    by_cases hc : code = c
    · simpa [hc, Balances.bal] using this
    · simp [hc, Balances.bal]
  | (k, v) :: rest, m', h, c => by
    simp only [Balances.update] at h
    split at h
    · rename_i hk
      rw [bind_ok_iff] at h
      obtain ⟨v', hv, h⟩ := h
      cases h
      rw [Balances.bal_cons, Balances.bal_cons]
      subst hk
      by_cases hc : k = c
      · simp only [hc, if_true]
        have := (hu v v' hv).add_right (Balances.bal rest c)
        rw [add_right_comm] at this
        exact this
      · simp only [hc, if_false, zero_add, add_zero]; rfl
    · rw [bind_ok_iff] at h
      obtain ⟨r', hr, h⟩ := h
      cases h
      rw [Balances.bal_cons, Balances.bal_cons, add_assoc]
      exact (Balances.update_modEq hu hi hr c).add_left _

theorem Balances.addInputs_modEq {b : Build} : ∀ {l : List RecordOpening} {m m' : Balances},
    Balances.addInputs b l m = .ok m' →
      ∀ c, m'.bal c ≡ m.bal c + (Spec.totalOf c l : ℤ) [ZMOD 2 ^ 128]
  | [], m, m', h, c => by cases h; simp [Spec.totalOf]
  | r :: rs, m, m', h, c => by
    simp only [Balances.addInputs, bind_ok_iff] at h
    obtain ⟨m1, h1, h2⟩ := h
    have ha := Balances.update_modEq (d := (r.amount.val : ℤ))
      (fun v v' hv => (i128Res_modEq hv).trans ((asI128_modEq _).add_left _))
      (fun v' hv => (Except.ok.inj hv) ▸ asI128_modEq r.amount) h1 c
    refine (Balances.addInputs_modEq h2 c).trans ((ha.add_right _).trans ?_)
    rw [add_assoc]
    apply Int.ModEq.add_left
    unfold Spec.totalOf
    by_cases hc : r.asset_def.code = c <;> simp [hc]

theorem Balances.subOutputs_modEq {b : Build} : ∀ {l : List RecordOpening} {m m' : Balances},
    Balances.subOutputs b l m = .ok m' →
      ∀ c, m'.bal c ≡ m.bal c - (Spec.totalOf c l : ℤ) [ZMOD 2 ^ 128]
  | [], m, m', h, c => by cases h; simp [Spec.totalOf]
  | r :: rs, m, m', h, c => by
    simp only [Balances.subOutputs, bind_ok_iff] at h
    obtain ⟨m1, h1, h2⟩ := h
    have ha := Balances.update_modEq (d := -(r.amount.val : ℤ))
      (fun v v' hv => (i128Res_modEq hv).trans (by
        rw [← sub_eq_add_neg]; exact (asI128_modEq r.amount).sub_left v))
      (fun v' hv => (i128Res_modEq hv).trans (asI128_modEq r.amount).neg) h1 c
    refine (Balances.subOutputs_modEq h2 c).trans ((ha.sub_right _).trans ?_)
    unfold Spec.totalOf
    by_cases hc : r.asset_def.code = c
    · simp only [hc, if_true, List.filter_cons, decide_true, List.map_cons, List.sum_cons, Nat.cast_add]
      ring_nf; rfl
    · simp only [hc, if_false, List.filter_cons, decide_false, add_zero, Bool.false_eq_true]; rfl

theorem real_eq (l : List RecordOpening) : Spec.real l = l.filter (fun r => !r.asset_def.isDummy) := by
  unfold Spec.real AssetDefinition.isDummy
  congr 1
  funext r
  simp

/-- what the balance check of the library guarantees in every build: balance modulo `2^128`, per asset -/
theorem checkBalance_modEq {b : Build} {inputs outputs : List RecordOpening} {fee : Amount}
    (h : checkBalance b inputs outputs = .ok fee) :
    ∃ i0 is, inputs = i0 :: is ∧ ∀ c : AssetCode, (Spec.totalOf c (Spec.real inputs) : ℤ) ≡
      (Spec.totalOf c outputs : ℤ) + (if c = i0.asset_def.code then (fee.val : ℤ) else 0) [ZMOD 2 ^ 128] := by
  simp only [checkBalance, bind_ok_iff] at h
  obtain ⟨f, -, u, h, hf⟩ := h
  cases hf
  unfold checkAssetAmount at h
  cases inputs with
  | nil => cases h
  | cons i0 is =>
    refine ⟨i0, is, rfl, fun c => ?_⟩
    simp only [bind_ok_iff, ensure_ok_iff, List.all_eq_true, decide_eq_true_eq] at h
    obtain ⟨nf, hnf, m1, h1, m2, h2, h3⟩ := h
    have e1 := Balances.addInputs_modEq h1 c
    have e2 := Balances.subOutputs_modEq h2 c
    rw [Balances.bal_zero h3 c] at e2
    rw [real_eq]
    have e0 : nf ≡ -(fee.val : ℤ) [ZMOD 2 ^ 128] := (i128Res_modEq hnf).trans (asI128_modEq fee).neg
    rw [Balances.bal_cons] at e1
    simp only [Balances.bal, List.filter_nil, List.map_nil, List.sum_nil, add_zero] at e1
    have e3 := e2.trans (e1.sub_right _)
    by_cases hc : c = i0.asset_def.code
    · rw [if_pos hc.symm] at e3
      rw [if_pos hc]
      have e4 := e3.trans ((e0.add_right _).sub_right _)
      have e5 := e4.add_right ((Spec.totalOf c outputs : ℤ) + fee.val)
      ring_nf at e5 ⊢
      exact e5.symm
    · rw [if_neg (fun h => hc h.symm)] at e3
      rw [if_neg hc]
      have e5 := e3.add_right (Spec.totalOf c outputs : ℤ)
      ring_nf at e5 ⊢
      exact e5.symm

end

end Cap
