/-
C32: policies built through the API are coherent, after any sequence of calls.

status: proved
note: All histories of policy API calls, by induction over the list of calls. C32_last: the keys and the threshold are those set last, and the is_..._set queries say whether they are the defaults.
-/
import Verif.Lemmas.Basic
import Verif.Model.Toy

namespace Cap

variable [E : CapEnv]

/-- A call of the policy API. -/
inductive PolicyOp where
  | setThreshold (t : Amount)
  | setViewer (k : Pt)
  | setIssuer (k : Pt)
  | setFreezer (k : Pt)
  | revealUserAddress
  | revealAmount
  | revealBlindingFactor
  | revealIthAttribute (i : ℕ)
  | revealAllAttributes
  | revealRecordOpening
  | revealAll

namespace PolicyOp

/-- the API function that is called -/
def call : PolicyOp → AssetPolicy → Res AssetPolicy
  | setThreshold t, s => .ok (s.setRevealThreshold t)
  | setViewer k, s => .ok (s.setViewerPubKey k)
  | setIssuer k, s => .ok (s.setCredCreatorPubKey k)
  | setFreezer k, s => .ok (s.setFreezerPubKey k)
  | revealUserAddress, s => s.revealUserAddress
  | revealAmount, s => s.revealAmount
  | revealBlindingFactor, s => s.revealBlindingFactor
  | revealIthAttribute i, s => s.revealIthAttribute i
  | revealAllAttributes, s => s.revealAllAttributes
  | revealRecordOpening, s => s.revealRecordOpening
  | revealAll, s => s.revealAll

/-- Specification: the positions of the reveal map a call is meant to set (0, 1: address; 2: amount;
3: blinding factor; 4 + i: attribute i). -/
def bits : PolicyOp → List ℕ
  | revealUserAddress => [0, 1]
  | revealAmount => [2]
  | revealBlindingFactor => [3]
  | revealIthAttribute i => [4 + i]
  | revealAllAttributes => [4, 5, 6, 7, 8, 9, 10, 11]
  | revealRecordOpening => [0, 1, 2, 3]
  | revealAll => [0, 1, 2, 3, 4, 5, 6, 7, 8, 9, 10, 11]
  | _ => []

/-- Specification: when a call may succeed.  Revealing anything needs a viewer; revealing an attribute also
needs a credential issuer; positions must exist. -/
def Allowed (op : PolicyOp) (s : AssetPolicy) : Prop :=
  (op.bits ≠ [] → s.viewer_pk ≠ 0) ∧ ((∃ b ∈ op.bits, 4 ≤ b) → s.cred_pk ≠ 0) ∧ ∀ b ∈ op.bits, b < 12

/-- Specification: the effect of a successful call. -/
def Effect (op : PolicyOp) (s s' : AssetPolicy) : Prop :=
  s'.viewer_pk = (match op with | setViewer k => k | _ => s.viewer_pk) ∧
  s'.cred_pk = (match op with | setIssuer k => k | _ => s.cred_pk) ∧
  s'.freezer_pk = (match op with | setFreezer k => k | _ => s.freezer_pk) ∧
  s'.reveal_threshold = (match op with | setThreshold t => t | _ => s.reveal_threshold) ∧
  ∀ (i : ℕ) (h : i < 12), s'.reveal_map[i] = (s.reveal_map[i] || decide (i ∈ op.bits))

end PolicyOp

/-- a sequence of calls, stopping at the first error -/
def runPolicy : List PolicyOp → AssetPolicy → Res AssetPolicy
  | [], s => .ok s
  | op :: ops, s => do
    let s ← op.call s
    runPolicy ops s

omit E in
theorem foldl_set_get (l : List (Fin 8)) (m : RevealMap) (i : ℕ) (h : i < 12) :
    (l.foldl (fun (m : RevealMap) (j : Fin 8) => m.set (4 + j.val) true (by omega)) m)[i] =
      (m[i] || decide (∃ j ∈ l, 4 + j.val = i)) := by
  induction l generalizing m with
  | nil => simp
  | cons j js ih =>
    rw [List.foldl_cons, ih, Vector.getElem_set]
    by_cases hj : 4 + j.val = i <;> simp [hj]

omit E in
theorem revealAllIdAttributes_get (m : RevealMap) (i : ℕ) (h : i < 12) :
    m.revealAllIdAttributes[i] = (m[i] || decide (4 ≤ i)) := by
  have := foldl_set_get (List.finRange 8) m i h
  unfold RevealMap.revealAllIdAttributes
  refine Eq.trans this ?_
  congr 1
  rw [decide_eq_decide]
  constructor
  · rintro ⟨j, -, rfl⟩; omega
  · intro h4
    exact ⟨⟨i - 4, by omega⟩, List.mem_finRange _, by simp; omega⟩

/-- Each call succeeds exactly when it is allowed, has exactly the specified effect, and otherwise returns an
error (the policy is consumed, so a caller keeps only copies of the old one). -/
theorem C32_call (op : PolicyOp) (s : AssetPolicy) :
    (op.Allowed s → ∃ s', op.call s = .ok s' ∧ op.Effect s s') ∧
      (¬ op.Allowed s → op.call s = .error .invalidParameter) := by
  have hset0 : ∀ (m : RevealMap) (i : ℕ) (h : i < 12),
      (m.revealUserAddress)[i] = (m[i] || decide (i ∈ [0, 1])) := by
    intro m i h
    simp only [RevealMap.revealUserAddress, Vector.getElem_set, List.mem_cons, List.not_mem_nil, or_false]
    by_cases h1 : 1 = i
    · simp [h1.symm]
    · by_cases h0 : 0 = i
      · simp [h0.symm]
      · have e1 : ¬ i = 1 := fun h => h1 h.symm
        have e0 : ¬ i = 0 := fun h => h0 h.symm
        simp [h0, h1, e0, e1]
  have hset2 : ∀ (m : RevealMap) (k : ℕ) (hk : k < 12) (i : ℕ) (h : i < 12),
      (m.set k true hk)[i] = (m[i] || decide (i ∈ [k])) := by
    intro m k hk i h
    rw [Vector.getElem_set]
    by_cases h1 : k = i
    · simp [h1]
    · have : ¬ i = k := fun h => h1 h.symm
      simp [h1, this]
  have hro : ∀ (m : RevealMap) (i : ℕ) (h : i < 12),
      (m.revealUserAddress.revealAmount.revealBlindingFactor)[i] = (m[i] || decide (i ∈ [0, 1, 2, 3])) := by
    intro m i h
    unfold RevealMap.revealBlindingFactor RevealMap.revealAmount
    rw [hset2, hset2, hset0, Bool.or_assoc, Bool.or_assoc]
    congr 1
    rw [← Bool.decide_or, ← Bool.decide_or, decide_eq_decide]
    simp only [List.mem_cons, List.not_mem_nil, or_false]
    omega
  have hall : ∀ (m : RevealMap) (i : ℕ) (h : i < 12),
      (m.revealUserAddress.revealAmount.revealBlindingFactor.revealAllIdAttributes)[i] =
        (m[i] || decide (i ∈ [0, 1, 2, 3, 4, 5, 6, 7, 8, 9, 10, 11])) := by
    intro m i h
    rw [revealAllIdAttributes_get, hro, Bool.or_assoc]
    congr 1
    rw [← Bool.decide_or, decide_eq_decide]
    simp only [List.mem_cons, List.not_mem_nil, or_false]
    omega
  cases op with
  | setThreshold t =>
    exact ⟨fun _ => ⟨_, rfl, rfl, rfl, rfl, rfl, fun i h => by simp [PolicyOp.bits, AssetPolicy.setRevealThreshold]⟩,
      fun h => absurd ⟨by simp [PolicyOp.bits], by simp [PolicyOp.bits], by simp [PolicyOp.bits]⟩ h⟩
  | setViewer t =>
    exact ⟨fun _ => ⟨_, rfl, rfl, rfl, rfl, rfl, fun i h => by simp [PolicyOp.bits, AssetPolicy.setViewerPubKey]⟩,
      fun h => absurd ⟨by simp [PolicyOp.bits], by simp [PolicyOp.bits], by simp [PolicyOp.bits]⟩ h⟩
  | setIssuer t =>
    exact ⟨fun _ => ⟨_, rfl, rfl, rfl, rfl, rfl, fun i h => by simp [PolicyOp.bits, AssetPolicy.setCredCreatorPubKey]⟩,
      fun h => absurd ⟨by simp [PolicyOp.bits], by simp [PolicyOp.bits], by simp [PolicyOp.bits]⟩ h⟩
  | setFreezer t =>
    exact ⟨fun _ => ⟨_, rfl, rfl, rfl, rfl, rfl, fun i h => by simp [PolicyOp.bits, AssetPolicy.setFreezerPubKey]⟩,
      fun h => absurd ⟨by simp [PolicyOp.bits], by simp [PolicyOp.bits], by simp [PolicyOp.bits]⟩ h⟩
  | revealUserAddress =>
    simp only [PolicyOp.Allowed, PolicyOp.bits, PolicyOp.call, AssetPolicy.revealUserAddress, AssetPolicy.isViewerPubKeySet]
    by_cases hv : s.viewer_pk = 0
    · simp [hv]
    · simp only [hv, ne_eq, not_false_eq_true, decide_true, Bool.not_true, Bool.false_eq_true, if_false]
      refine ⟨fun _ => ⟨_, rfl, rfl, rfl, rfl, rfl, fun i h => hset0 _ i h⟩, fun h => absurd ?_ h⟩
      simp
  | revealAmount =>
    simp only [PolicyOp.Allowed, PolicyOp.bits, PolicyOp.call, AssetPolicy.revealAmount, AssetPolicy.isViewerPubKeySet]
    by_cases hv : s.viewer_pk = 0
    · simp [hv]
    · simp only [hv, ne_eq, not_false_eq_true, decide_true, Bool.not_true, Bool.false_eq_true, if_false]
      refine ⟨fun _ => ⟨_, rfl, rfl, rfl, rfl, rfl, fun i h => hset2 _ 2 (by norm_num) i h⟩, fun h => absurd ?_ h⟩
      simp
  | revealBlindingFactor =>
    simp only [PolicyOp.Allowed, PolicyOp.bits, PolicyOp.call, AssetPolicy.revealBlindingFactor, AssetPolicy.isViewerPubKeySet]
    by_cases hv : s.viewer_pk = 0
    · simp [hv]
    · simp only [hv, ne_eq, not_false_eq_true, decide_true, Bool.not_true, Bool.false_eq_true, if_false]
      refine ⟨fun _ => ⟨_, rfl, rfl, rfl, rfl, rfl, fun i h => hset2 _ 3 (by norm_num) i h⟩, fun h => absurd ?_ h⟩
      simp
  | revealIthAttribute k =>
    simp only [PolicyOp.Allowed, PolicyOp.bits, PolicyOp.call, AssetPolicy.revealIthAttribute,
      AssetPolicy.isViewerPubKeySet, AssetPolicy.isCredCreatorPubKeySet]
    by_cases hv : s.viewer_pk = 0
    · simp [hv]
    · by_cases hc : s.cred_pk = 0
      · simp [hv, hc]
      · simp only [hv, hc, ne_eq, not_false_eq_true, decide_true, Bool.not_true, Bool.false_eq_true, if_false]
        by_cases hk : ATTRS_LEN ≤ k
        · simp only [RevealMap.revealIthIdAttribute, dif_pos hk]
          refine ⟨fun h => absurd (h.2.2 (4 + k) (by simp)) (by simp only [ATTRS_LEN] at hk; omega), fun _ => rfl⟩
        · simp only [RevealMap.revealIthIdAttribute, dif_neg hk]
          refine ⟨fun _ => ⟨_, rfl, rfl, rfl, rfl, rfl, fun i h => hset2 _ _ (by simp only [ATTRS_LEN, ASSET_TRACING_MAP_LEN] at *; omega) i h⟩, fun h => absurd ?_ h⟩
          simp only [ATTRS_LEN] at hk
          refine ⟨by simp, by simp, ?_⟩
          simp
          omega
  | revealAllAttributes =>
    simp only [PolicyOp.Allowed, PolicyOp.bits, PolicyOp.call, AssetPolicy.revealAllAttributes,
      AssetPolicy.isViewerPubKeySet, AssetPolicy.isCredCreatorPubKeySet]
    by_cases hv : s.viewer_pk = 0
    · simp [hv]
    · by_cases hc : s.cred_pk = 0
      · simp [hv, hc]
      · simp only [hv, hc, ne_eq, not_false_eq_true, decide_true, Bool.not_true, Bool.false_eq_true, if_false]
        refine ⟨fun _ => ⟨_, rfl, rfl, rfl, rfl, rfl, fun i h => ?_⟩, fun h => absurd ?_ h⟩
        · rw [revealAllIdAttributes_get]
          congr 1
          rw [decide_eq_decide]
          simp only [PolicyOp.bits, List.mem_cons, List.not_mem_nil, or_false]
          omega
        · simp
  | revealRecordOpening =>
    simp only [PolicyOp.Allowed, PolicyOp.bits, PolicyOp.call, AssetPolicy.revealRecordOpening,
      AssetPolicy.revealUserAddress, AssetPolicy.revealAmount, AssetPolicy.revealBlindingFactor,
      AssetPolicy.isViewerPubKeySet]
    by_cases hv : s.viewer_pk = 0
    · simp [hv, bind, Except.bind]
    · simp only [hv, ne_eq, not_false_eq_true, decide_true, Bool.not_true, Bool.false_eq_true, if_false, bind, Except.bind]
      refine ⟨fun _ => ⟨_, rfl, rfl, rfl, rfl, rfl, fun i h => hro _ i h⟩, fun h => absurd ?_ h⟩
      simp
  | revealAll =>
    simp only [PolicyOp.Allowed, PolicyOp.bits, PolicyOp.call, AssetPolicy.revealAll, AssetPolicy.revealRecordOpening,
      AssetPolicy.revealUserAddress, AssetPolicy.revealAmount, AssetPolicy.revealBlindingFactor,
      AssetPolicy.revealAllAttributes, AssetPolicy.isViewerPubKeySet, AssetPolicy.isCredCreatorPubKeySet]
    by_cases hv : s.viewer_pk = 0
    · simp [hv, bind, Except.bind]
    · by_cases hc : s.cred_pk = 0
      · simp [hv, hc, bind, Except.bind]
      · simp only [hv, hc, ne_eq, not_false_eq_true, decide_true, Bool.not_true, Bool.false_eq_true, if_false, bind, Except.bind]
        refine ⟨fun _ => ⟨_, rfl, rfl, rfl, rfl, rfl, fun i h => hall _ i h⟩, fun h => absurd ?_ h⟩
        simp

theorem policyCall_ok {op : PolicyOp} {s s' : AssetPolicy} (h : op.call s = .ok s') :
    op.Allowed s ∧ op.Effect s s' := by
  by_cases ha : op.Allowed s
  · obtain ⟨s'', h1, h2⟩ := (C32_call op s).1 ha
    rw [h1] at h
    cases h
    exact ⟨ha, h2⟩
  · rw [(C32_call op s).2 ha] at h
    cases h

/-- After any successful sequence of calls from the default policy, a revealed position was set by a call of
that sequence that was allowed at that time: the viewer key was set then, and for an attribute (position 4 and
up) the issuer key as well. -/
theorem C32_history_bits (ops : List PolicyOp) (s : AssetPolicy) (h : runPolicy ops AssetPolicy.default = .ok s)
    (i : ℕ) (hi : i < 12) (hb : s.reveal_map[i] = true) :
    ∃ pre op post mid, ops = pre ++ op :: post ∧ runPolicy pre AssetPolicy.default = .ok mid ∧
      i ∈ op.bits ∧ mid.viewer_pk ≠ 0 ∧ (4 ≤ i → mid.cred_pk ≠ 0) := by
  have key : ∀ (ops : List PolicyOp) (s0 s : AssetPolicy), runPolicy ops s0 = .ok s → s.reveal_map[i] = true →
      s0.reveal_map[i] = false →
      ∃ pre op post mid, ops = pre ++ op :: post ∧ runPolicy pre s0 = .ok mid ∧
        i ∈ op.bits ∧ mid.viewer_pk ≠ 0 ∧ (4 ≤ i → mid.cred_pk ≠ 0) := by
    intro ops
    induction ops with
    | nil =>
      intro s0 s h hb h0
      cases h
      rw [h0] at hb
      cases hb
    | cons op ops ih =>
      intro s0 s h hb h0
      unfold runPolicy at h
      rw [bind_ok_iff] at h
      obtain ⟨s1, h1, h⟩ := h
      obtain ⟨ha, he⟩ := policyCall_ok h1
      by_cases hbit : i ∈ op.bits
      · refine ⟨[], op, ops, s0, rfl, rfl, hbit, ha.1 (List.ne_nil_of_mem hbit), fun h4 => ha.2.1 ⟨i, hbit, h4⟩⟩
      · have hs1 : s1.reveal_map[i] = false := by
          rw [he.2.2.2.2 i hi, h0]
          simp [hbit]
        obtain ⟨pre, op', post, mid, e1, e2, e3⟩ := ih s1 s h hb hs1
        refine ⟨op :: pre, op', post, mid, by rw [e1]; rfl, ?_, e3⟩
        unfold runPolicy
        rw [h1]
        exact e2
  refine key ops AssetPolicy.default s h hb ?_
  simp [AssetPolicy.default, RevealMap.default]

/-- After any successful sequence of calls from the default policy, the two coordinates of the address are
revealed together. -/
theorem C32_history_address (ops : List PolicyOp) (s : AssetPolicy)
    (h : runPolicy ops AssetPolicy.default = .ok s) : s.reveal_map[0] = s.reveal_map[1] := by
  have key : ∀ (ops : List PolicyOp) (s0 s : AssetPolicy), runPolicy ops s0 = .ok s →
      s0.reveal_map[0] = s0.reveal_map[1] → s.reveal_map[0] = s.reveal_map[1] := by
    intro ops
    induction ops with
    | nil => intro s0 s h h0; cases h; exact h0
    | cons op ops ih =>
      intro s0 s h h0
      unfold runPolicy at h
      rw [bind_ok_iff] at h
      obtain ⟨s1, h1, h⟩ := h
      refine ih s1 s h ?_
      obtain ⟨-, -, -, -, -, hm⟩ := policyCall_ok h1
      rw [hm 0 (by norm_num), hm 1 (by norm_num), h0]
      congr 1
      cases op <;> simp [PolicyOp.bits]
      omega
  exact key ops _ s h (by simp [AssetPolicy.default, RevealMap.default])

/-- Corollary: a policy built without ever setting a viewer key reveals nothing. -/
theorem C32_no_viewer (ops : List PolicyOp) (s : AssetPolicy) (h : runPolicy ops AssetPolicy.default = .ok s)
    (hno : ∀ k, PolicyOp.setViewer k ∉ ops) : s.reveal_map = RevealMap.default := by
  ext i hi
  rw [show (RevealMap.default)[i] = false by simp [RevealMap.default]]
  by_contra hb
  rw [Bool.not_eq_false] at hb
  obtain ⟨pre, op, post, mid, e, hpre, -, hv, -⟩ := C32_history_bits ops s h i hi hb
  have key : ∀ (l : List PolicyOp) (s0 s : AssetPolicy), (∀ k, PolicyOp.setViewer k ∉ l) →
      runPolicy l s0 = .ok s → s.viewer_pk = s0.viewer_pk := by
    intro l
    induction l with
    | nil => intro s0 s _ h; cases h; rfl
    | cons op ops ih =>
      intro s0 s hno h
      unfold runPolicy at h
      rw [bind_ok_iff] at h
      obtain ⟨s1, h1, h⟩ := h
      rw [ih s1 s (fun k hk => hno k (List.mem_cons_of_mem _ hk)) h, (policyCall_ok h1).2.1]
      cases op <;> try rfl
      rename_i k
      exact absurd List.mem_cons_self (hno k)
  exact hv (key pre _ mid (fun k hk => hno k (by rw [e]; exact List.mem_append_left _ hk)) hpre)

/-- Specification: what was set last by the calls that `pick` selects, or `a` if none was. -/
def lastSet {α : Type} (pick : PolicyOp → Option α) (a : α) (ops : List PolicyOp) : α :=
  ((ops.filterMap pick).getLast?).getD a

theorem lastSet_cons {α : Type} (pick : PolicyOp → Option α) (a : α) (op : PolicyOp) (ops : List PolicyOp) :
    lastSet pick a (op :: ops) = lastSet pick ((pick op).getD a) ops := by
  unfold lastSet
  rw [List.filterMap_cons]
  cases pick op with
  | none => rfl
  | some x =>
    dsimp only [Option.getD_some]
    rw [List.getLast?_cons]
    cases (ops.filterMap pick).getLast? <;> rfl

/-- After any successful history the keys and the threshold are those set last, and the queries tell whether these differ
from the defaults. -/
theorem C32_last (ops : List PolicyOp) (s : AssetPolicy) (h : runPolicy ops AssetPolicy.default = .ok s) :
    s.viewer_pk = lastSet (fun | .setViewer k => some k | _ => none) 0 ops ∧
    s.cred_pk = lastSet (fun | .setIssuer k => some k | _ => none) 0 ops ∧
    s.freezer_pk = lastSet (fun | .setFreezer k => some k | _ => none) 0 ops ∧
    s.reveal_threshold = lastSet (fun | .setThreshold t => some t | _ => none) 0 ops ∧
    (s.isViewerPubKeySet = true ↔ s.viewer_pk ≠ 0) ∧ (s.isCredCreatorPubKeySet = true ↔ s.cred_pk ≠ 0) ∧
    (s.isFreezerPubKeySet = true ↔ s.freezer_pk ≠ 0) ∧ (s.isRevealThresholdSet = true ↔ s.reveal_threshold ≠ 0) := by
  have key : ∀ (ops : List PolicyOp) (s0 s : AssetPolicy), runPolicy ops s0 = .ok s →
      s.viewer_pk = lastSet (fun | .setViewer k => some k | _ => none) s0.viewer_pk ops ∧
      s.cred_pk = lastSet (fun | .setIssuer k => some k | _ => none) s0.cred_pk ops ∧
      s.freezer_pk = lastSet (fun | .setFreezer k => some k | _ => none) s0.freezer_pk ops ∧
      s.reveal_threshold = lastSet (fun | .setThreshold t => some t | _ => none) s0.reveal_threshold ops := by
    intro ops
    induction ops with
    | nil => intro s0 s h; cases h; exact ⟨rfl, rfl, rfl, rfl⟩
    | cons op ops ih =>
      intro s0 s h
      unfold runPolicy at h
      rw [bind_ok_iff] at h
      obtain ⟨s1, h1, h⟩ := h
      obtain ⟨i1, i2, i3, i4⟩ := ih s1 s h
      obtain ⟨e1, e2, e3, e4, -⟩ := (policyCall_ok h1).2
      rw [i1, i2, i3, i4, e1, e2, e3, e4]
      simp only [lastSet_cons]
      cases op <;> exact ⟨rfl, rfl, rfl, rfl⟩
  obtain ⟨h1, h2, h3, h4⟩ := key ops _ s h
  refine ⟨h1, h2, h3, h4, ?_, ?_, ?_, ?_⟩
  · simp [AssetPolicy.isViewerPubKeySet]
  · simp [AssetPolicy.isCredCreatorPubKeySet]
  · simp [AssetPolicy.isFreezerPubKeySet]
  · simp [AssetPolicy.isRevealThresholdSet]

/-- The queries return the positions they name, and an attribute index out of range is rejected. -/
theorem C32_queries (s : AssetPolicy) (i : ℕ) :
    s.isUserAddressRevealed = s.reveal_map[0] ∧ s.isAmountRevealed = s.reveal_map[2] ∧
    s.isBlindingFactorRevealed = s.reveal_map[3] ∧
    (∀ h : i < 8, s.reveal_map.isIthAttributeRevealed i = .ok s.reveal_map[4 + i]) ∧
    (8 ≤ i → s.reveal_map.isIthAttributeRevealed i = .error .invalidParameter ∧
      s.reveal_map.revealIthIdAttribute i = .error .invalidParameter) := by
  refine ⟨rfl, rfl, rfl, fun h => ?_, fun h => ?_⟩
  · unfold RevealMap.isIthAttributeRevealed
    rw [dif_neg (by simp only [ATTRS_LEN]; omega)]
    rfl
  · unfold RevealMap.isIthAttributeRevealed RevealMap.revealIthIdAttribute
    rw [dif_pos (show ATTRS_LEN ≤ i from h), dif_pos (show ATTRS_LEN ≤ i from h)]
    exact ⟨rfl, rfl⟩

end Cap

/-! Non-vacuity -/

namespace Cap.Examples
open Toy

example : ∃ s, runPolicy [.setViewer (4 : ZMod r), .revealUserAddress, .setIssuer (5 : ZMod r), .revealIthAttribute 3]
    AssetPolicy.default = .ok s ∧ s.reveal_map =
      #v[true, true, false, false, false, false, false, true, false, false, false, false] :=
  ⟨_, rfl, by decide +kernel⟩
example : runPolicy [.setViewer (4 : ZMod r), .revealIthAttribute 3] AssetPolicy.default = .error .invalidParameter := by
  decide +kernel
example : runPolicy [.setViewer (4 : ZMod r), .setIssuer (5 : ZMod r), .revealIthAttribute 8] AssetPolicy.default =
    .error .invalidParameter := by decide +kernel

/-- the viewer is replaced, the threshold is set -/
example : ∃ s, runPolicy [.setViewer (4 : ZMod r), .setThreshold 9, .revealAmount, .setViewer (6 : ZMod r)]
    AssetPolicy.default = .ok s ∧ s.viewer_pk = (6 : ZMod r) ∧ s.isRevealThresholdSet = true ∧ s.isFreezerPubKeySet = false :=
  ⟨_, rfl, by decide +kernel, by decide +kernel, by decide +kernel⟩

end Cap.Examples
