/-
The record Merkle tree: paths taken from the tree lead to its root; a path that leads to the root ends at a leaf of the
tree, if the hashes involved do not collide.
-/
import Verif.SpecLedger
import Mathlib.Tactic.Ring
import Mathlib.Tactic.IntervalCases

namespace Cap

open Spec

variable [E : CapEnv]

theorem treeNode_zero_some {leaves : List F} {i : ℕ} {c : F} (h : leaves[i]? = some c) :
    treeNode leaves 0 i = E.leafHash (i : F) c := by
  simp [treeNode, h]

theorem treeNode_succ {leaves : List F} {l i : ℕ} (h : i * 3 ^ (l + 1) < leaves.length) :
    treeNode leaves (l + 1) i =
      E.nodeHash (treeNode leaves l (3 * i)) (treeNode leaves l (3 * i + 1)) (treeNode leaves l (3 * i + 2)) := by
  rw [treeNode, if_neg (by omega)]

/-! ### Paths from the tree -/

theorem treePathFrom_length (leaves : List F) (k l i : ℕ) : (treePathFrom leaves k l i).length = k := by
  induction k generalizing l i with
  | zero => rfl
  | succ k ih => simp [treePathFrom, ih]

theorem treePath_length (d : ℕ) (leaves : List F) (uid : ℕ) : (treePath d leaves uid).length = d :=
  treePathFrom_length leaves d 0 uid

theorem treePathFrom_fold {leaves : List F} (k l i : ℕ) (h : i * 3 ^ l < leaves.length) :
    (treePathFrom leaves k l i).foldl PathNode.step (treeNode leaves l i) = treeNode leaves (l + k) (i / 3 ^ k) := by
  induction k generalizing l i with
  | zero => simp [treePathFrom]
  | succ k ih =>
    have hup : i / 3 * 3 ^ (l + 1) < leaves.length := by
      refine lt_of_le_of_lt ?_ h
      rw [pow_succ, ← mul_assoc, mul_right_comm]
      exact Nat.mul_le_mul_right _ (Nat.div_mul_le_self i 3)
    have hn := treeNode_succ hup
    have hstep : ∀ nd, (nd =
        (if i % 3 = 0 then (⟨treeNode leaves l (3 * (i / 3) + 1), treeNode leaves l (3 * (i / 3) + 2), .left⟩ : PathNode)
        else if i % 3 = 1 then ⟨treeNode leaves l (3 * (i / 3)), treeNode leaves l (3 * (i / 3) + 2), .middle⟩
        else ⟨treeNode leaves l (3 * (i / 3)), treeNode leaves l (3 * (i / 3) + 1), .right⟩)) →
        nd.step (treeNode leaves l i) = treeNode leaves (l + 1) (i / 3) := by
      intro nd hnd
      rw [hn, hnd]
      split
      · rename_i hm
        have hi : 3 * (i / 3) = i := by omega
        simp only [PathNode.step, hi]
      · split
        · have hi : 3 * (i / 3) + 1 = i := by omega
          simp only [PathNode.step, hi]
        · have hi : 3 * (i / 3) + 2 = i := by omega
          simp only [PathNode.step, hi]
    rw [treePathFrom]
    simp only [List.foldl_cons]
    rw [hstep _ rfl, ih (l + 1) (i / 3) hup, Nat.div_div_eq_div_mul, pow_succ, mul_comm 3]
    congr 1
    omega

/-- **Honest paths are accepted**: the path taken from the tree leads from the leaf to the root. -/
theorem treePath_root {d : ℕ} {leaves : List F} {uid : ℕ} {c : F} (fits : leaves.length ≤ 3 ^ d)
    (h : leaves[uid]? = some c) : merkleRoot (uid : F) c (treePath d leaves uid) = treeRoot d leaves := by
  obtain ⟨hlt, -⟩ := List.getElem?_eq_some_iff.1 h
  unfold merkleRoot treePath treeRoot
  rw [← treeNode_zero_some h, treePathFrom_fold d 0 uid (by simpa using hlt)]
  rw [Nat.div_eq_of_lt (by omega), Nat.zero_add]

/-! ### Paths to the root -/

theorem pathCalls_append (cur : F) (p q : List PathNode) :
    pathCalls cur (p ++ q) = pathCalls cur p ++ pathCalls (p.foldl PathNode.step cur) q := by
  induction p generalizing cur with
  | nil => rfl
  | cons n ns ih => simp [pathCalls, ih]

theorem step_eq (cur : F) (n : PathNode) :
    n.step cur = E.nodeHash (stepCall cur n).1 (stepCall cur n).2.1 (stepCall cur n).2.2 := by
  unfold PathNode.step stepCall
  cases n.pos <;> rfl

/-- A path whose end is a node of the tree starts at a leaf node below it. -/
theorem fold_leaf {leaves : List F} (cur : F) (path : List PathNode) (i : ℕ)
    (inj : ∀ x ∈ nodeCalls leaves path.length i, ∀ y ∈ pathCalls cur path,
      E.nodeHash x.1 x.2.1 x.2.2 = E.nodeHash y.1 y.2.1 y.2.2 → x = y)
    (nonzero : ∀ y ∈ pathCalls cur path, E.nodeHash y.1 y.2.1 y.2.2 ≠ 0)
    (h : path.foldl PathNode.step cur = treeNode leaves path.length i) :
    ∃ j, cur = treeNode leaves 0 j := by
  induction path using List.reverseRecOn generalizing i with
  | nil => exact ⟨i, h⟩
  | append_singleton p n ih =>
    rw [List.length_append, List.length_singleton] at h inj
    rw [List.foldl_append, List.foldl_cons, List.foldl_nil] at h
    rw [pathCalls_append] at inj nonzero
    have hmem : stepCall (p.foldl PathNode.step cur) n ∈
        pathCalls cur p ++ pathCalls (p.foldl PathNode.step cur) [n] :=
      List.mem_append_right _ List.mem_cons_self
    have hne : ¬ leaves.length ≤ i * 3 ^ (p.length + 1) := by
      intro hle
      rw [treeNode, if_pos hle, step_eq] at h
      exact nonzero _ hmem h
    rw [treeNode, if_neg hne, step_eq] at h
    have hx : (treeNode leaves p.length (3 * i), treeNode leaves p.length (3 * i + 1),
        treeNode leaves p.length (3 * i + 2)) ∈ nodeCalls leaves (p.length + 1) i := by
      rw [nodeCalls, if_neg hne]
      exact List.mem_cons_self
    have heq := inj _ hx _ hmem h.symm
    have hsub : ∀ k, k ≤ 2 → ∀ x ∈ nodeCalls leaves p.length (3 * i + k), x ∈ nodeCalls leaves (p.length + 1) i := by
      intro k hk x hx
      rw [nodeCalls, if_neg hne]
      refine List.mem_cons_of_mem _ ?_
      simp only [List.mem_append]
      interval_cases k
      · exact Or.inl (Or.inl hx)
      · exact Or.inl (Or.inr hx)
      · exact Or.inr hx
    have hrec : ∀ k, k ≤ 2 → p.foldl PathNode.step cur = treeNode leaves p.length (3 * i + k) →
        ∃ j, cur = treeNode leaves 0 j := fun k hk he =>
      ih (3 * i + k) (fun x hx y hy => inj x (hsub k hk x hx) y (List.mem_append_left _ hy))
        (fun y hy => nonzero y (List.mem_append_left _ hy)) he
    unfold stepCall at heq
    rcases hp : n.pos with _ | _ | _ <;> rw [hp] at heq <;> simp only [Prod.mk.injEq] at heq
    · exact hrec 0 (by omega) heq.1.symm
    · exact hrec 1 (by omega) heq.2.1.symm
    · exact hrec 2 (by omega) heq.2.2.symm

/-- **A path that leads to the root belongs to a leaf of the tree**, at the position it claims. -/
theorem path_leaf {d : ℕ} {leaves : List F} {uid : ℕ} {c : F} {path : List PathNode} (len : path.length = d)
    (fits : leaves.length < 2 ^ 64) (small : uid < 2 ^ 64)
    (inj : ∀ x ∈ nodeCalls leaves d 0, ∀ y ∈ pathCalls (E.leafHash (uid : F) c) path,
      E.nodeHash x.1 x.2.1 x.2.2 = E.nodeHash y.1 y.2.1 y.2.2 → x = y)
    (nonzero : ∀ y ∈ pathCalls (E.leafHash (uid : F) c) path, E.nodeHash y.1 y.2.1 y.2.2 ≠ 0)
    (leaf : ∀ x ∈ leafCalls leaves, E.leafHash x.1 x.2 = E.leafHash (uid : F) c → x = ((uid : F), c))
    (leaf_zero : E.leafHash (uid : F) c ≠ 0)
    (h : merkleRoot (uid : F) c path = treeRoot d leaves) : leaves[uid]? = some c := by
  subst len
  obtain ⟨j, hj⟩ := fold_leaf (E.leafHash (uid : F) c) path 0 inj nonzero h
  cases hl : leaves[j]? with
  | none =>
    rw [treeNode, hl] at hj
    exact absurd hj leaf_zero
  | some c' =>
    rw [treeNode_zero_some hl] at hj
    have hlt := (List.getElem?_eq_some_iff.1 hl).1
    have hm : ((j : F), c') ∈ leafCalls leaves := by
      unfold leafCalls
      refine List.mem_map.2 ⟨(c', j), ?_, rfl⟩
      rw [List.mem_zipIdx_iff_getElem?]
      exact hl
    have := leaf _ hm hj.symm
    simp only [Prod.mk.injEq] at this
    obtain ⟨h1, rfl⟩ := this
    have hp := E.p_gt
    have : j = uid := by
      have := congrArg ZMod.val h1
      rwa [ZMod.val_natCast_of_lt (by omega), ZMod.val_natCast_of_lt (by omega)] at this
    rw [← this]
    exact hl

end Cap
