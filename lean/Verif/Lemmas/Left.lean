/-
What is left of a list of weighted things when some positions are taken out.
-/
import Mathlib.Data.List.Basic
import Mathlib.Data.List.Nodup
import Mathlib.Algebra.BigOperators.Group.List.Basic
import Mathlib.Tactic.Linarith

namespace Cap

variable {α β : Type}

/-- what is left of a list, counted from position `n`, when the positions in `gone` are taken out -/
def leftOf (w : α → ℕ) (gone : List ℕ) (l : List α) (n : ℕ) : ℕ :=
  ((l.zipIdx n).map (fun x => if x.2 ∈ gone then 0 else w x.1)).sum

theorem leftOf_cons (w : α → ℕ) (gone : List ℕ) (a : α) (l : List α) (n : ℕ) :
    leftOf w gone (a :: l) n = (if n ∈ gone then 0 else w a) + leftOf w gone l (n + 1) := by
  unfold leftOf
  rw [List.zipIdx_cons, List.map_cons, List.sum_cons]

theorem leftOf_append (w : α → ℕ) (gone : List ℕ) (l m : List α) (n : ℕ) :
    leftOf w gone (l ++ m) n = leftOf w gone l n + leftOf w gone m (n + l.length) := by
  unfold leftOf
  rw [List.zipIdx_append, List.map_append, List.sum_append]

theorem leftOf_of_lt {w : α → ℕ} {gone : List ℕ} (l : List α) {n : ℕ} (h : ∀ j ∈ gone, j < n) :
    leftOf w gone l n = (l.map w).sum := by
  induction l generalizing n with
  | nil => rfl
  | cons r rs ih =>
    rw [leftOf_cons, ih (fun j hj => Nat.lt_succ_of_lt (h j hj)), List.map_cons, List.sum_cons,
      if_neg (fun hn => absurd (h n hn) (lt_irrefl n))]

theorem leftOf_congr {w : α → ℕ} {g g' : List ℕ} (l : List α) {n : ℕ} (h : ∀ j, n ≤ j → (j ∈ g ↔ j ∈ g')) :
    leftOf w g l n = leftOf w g' l n := by
  induction l generalizing n with
  | nil => rfl
  | cons r rs ih =>
    rw [leftOf_cons, leftOf_cons, ih (fun j hj => h j (by omega))]
    simp only [h n le_rfl]

/-- taking one more out -/
theorem leftOf_remove {w : α → ℕ} {gone : List ℕ} {l : List α} {n j : ℕ} {r : α} (hj : l[j]? = some r)
    (hn : n + j ∉ gone) : leftOf w (gone ++ [n + j]) l n + w r = leftOf w gone l n := by
  induction l generalizing n j with
  | nil => simp at hj
  | cons a rs ih =>
    rw [leftOf_cons, leftOf_cons]
    cases j with
    | zero =>
      simp only [List.getElem?_cons_zero, Option.some.injEq] at hj
      subst hj
      have h1 : n ∉ gone := hn
      have h2 : leftOf w (gone ++ [n + 0]) rs (n + 1) = leftOf w gone rs (n + 1) := by
        refine leftOf_congr rs ?_
        intro k hk
        simp only [List.mem_append, List.mem_singleton, Nat.add_zero, or_iff_left_iff_imp]
        omega
      rw [h2, if_pos (by simp), if_neg h1]
      omega
    | succ j =>
      rw [List.getElem?_cons_succ] at hj
      have := ih (n := n + 1) hj (by rwa [show n + 1 + j = n + (j + 1) by omega])
      rw [show n + 1 + j = n + (j + 1) by omega] at this
      have e : (n ∈ gone ++ [n + (j + 1)]) ↔ n ∈ gone := by
        simp only [List.mem_append, List.mem_singleton, or_iff_left_iff_imp]
        omega
      simp only [e]
      omega

/-- taking several out -/
theorem leftOf_spend {w : α → ℕ} {l : List α} {pos : β → ℕ} {v : β → ℕ} (xs : List β) : ∀ {gone : List ℕ},
    (∀ x ∈ xs, ∃ r, l[pos x]? = some r ∧ w r = v x) → (xs.map pos).Nodup → (∀ x ∈ xs, pos x ∉ gone) →
    leftOf w (gone ++ xs.map pos) l 0 + (xs.map v).sum = leftOf w gone l 0 := by
  induction xs with
  | nil => intro gone _ _ _; simp
  | cons x xs ih =>
    intro gone hr hn hg
    rw [List.map_cons, List.nodup_cons] at hn
    obtain ⟨r, hx, hw⟩ := hr x List.mem_cons_self
    have h1 := ih (gone := gone ++ [pos x]) (fun y hy => hr y (List.mem_cons_of_mem _ hy)) hn.2 (by
      intro y hy hm
      rcases List.mem_append.1 hm with hm | hm
      · exact hg y (List.mem_cons_of_mem _ hy) hm
      · rw [List.mem_singleton] at hm
        exact hn.1 (hm ▸ List.mem_map_of_mem hy))
    have h2 := leftOf_remove (w := w) (n := 0) hx (by rw [Nat.zero_add]; exact hg x List.mem_cons_self)
    rw [Nat.zero_add] at h2
    rw [List.map_cons, List.map_cons, List.sum_cons]
    rw [show gone ++ pos x :: xs.map pos = gone ++ [pos x] ++ xs.map pos by simp]
    omega

end Cap
