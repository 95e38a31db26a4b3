/-
Helper lemmas about `safe_sum_amount`.
-/
import Verif.Lemmas.Basic

namespace Cap

theorem foldl_addChecked_none (l : List Amount) : l.foldl addChecked none = none := by
  induction l with
  | nil => rfl
  | cons a as ih => simpa [addChecked] using ih

theorem foldl_addChecked_some (l : List Amount) (a b : Amount) :
    l.foldl addChecked (some a) = some b ↔ a.val + (l.map Fin.val).sum = b.val := by
  induction l generalizing a with
  | nil => simp [Fin.ext_iff]
  | cons x xs ih =>
    rw [List.foldl_cons]
    by_cases h : a.val + x.val < 2 ^ 128
    · have h1 : addChecked (some a) x = some ⟨a.val + x.val, h⟩ := by simp only [addChecked, dif_pos h]
      rw [h1, ih]
      simp [Nat.add_assoc]
    · have h1 : addChecked (some a) x = none := by simp only [addChecked, dif_neg h]
      rw [h1, foldl_addChecked_none]
      have := b.isLt
      simp
      omega

/-- `safe_sum_amount` returns exactly the sum -/
theorem safeSumAmount_eq_some (l : List Amount) (a : Amount) :
    safeSumAmount l = some a ↔ (l.map Fin.val).sum = a.val := by
  unfold safeSumAmount
  rw [foldl_addChecked_some]
  simp

theorem safeSumAmount_eq_none (l : List Amount) :
    safeSumAmount l = none ↔ 2 ^ 128 ≤ (l.map Fin.val).sum := by
  constructor
  · intro h
    by_contra hlt
    have := (safeSumAmount_eq_some l ⟨(l.map Fin.val).sum, by omega⟩).2 rfl
    rw [h] at this
    cases this
  · intro h
    cases hs : safeSumAmount l with
    | none => rfl
    | some a =>
      have := (safeSumAmount_eq_some l a).1 hs
      have := a.isLt
      omega

theorem safeSumOr_ok {l : List Amount} {a : Amount} :
    safeSumOr l = .ok a ↔ (l.map Fin.val).sum = a.val := by
  rw [← safeSumAmount_eq_some]
  unfold safeSumOr
  cases safeSumAmount l <;> simp

theorem safeSumOr_eq_ok_of_lt {l : List Amount} (h : (l.map Fin.val).sum < 2 ^ 128) :
    safeSumOr l = .ok ⟨(l.map Fin.val).sum, h⟩ := safeSumOr_ok.2 rfl

theorem checkedSub_ok {a b c : Amount} : checkedSub a b = .ok c ↔ a.val = b.val + c.val := by
  unfold checkedSub
  split
  · rename_i h
    have h' : b.val ≤ a.val := h
    have : (a - b).val = a.val - b.val := Fin.sub_val_of_le h
    simp only [Except.ok.injEq, Fin.ext_iff, this]
    omega
  · rename_i h
    have h' : ¬ b.val ≤ a.val := h
    simp
    omega

end Cap
