/-
Opening a viewing memo that the circuit made: what is shown is the assignment's.
-/
import Verif.SpecView
import Verif.Lemmas.ForgeViewed

namespace Cap

open Spec

variable [E : CapEnv]

theorem fetchAddress_shows {ad : AssetDefinition} {o : PtV} {v : Option Pt}
    (h : ViewableData.fetchAddress (boolF ad.policy.reveal_map[0] * o.1) (boolF ad.policy.reveal_map[0] * o.2) ad = .ok v) :
    if ad.policy.reveal_map[0] then ∃ P, v = some P ∧ E.xy P = o else v = none := by
  cases hb : ad.policy.reveal_map[0] with
  | false =>
    rw [hb] at h
    simp only [boolF, Bool.false_eq_true, if_false, zero_mul] at h
    rw [fetchAddress_zero, hb] at h
    cases h
    rfl
  | true =>
    rw [hb] at h
    simp only [boolF, if_true, one_mul] at h
    rw [if_pos rfl]
    unfold ViewableData.fetchAddress RevealMap.isUserAddressRevealed AssetPolicy.isUserAddressRevealed
      RevealMap.isUserAddressRevealed at h
    rw [hb] at h
    cases hx : E.ofXY (o.1, o.2) with
    | none => rw [hx] at h; cases h
    | some P =>
      rw [hx] at h
      simp only [true_or, if_true] at h
      cases h
      exact ⟨P, rfl, (E.ofXY_iff _ _).1 hx⟩

theorem fetchAmount_shows {ad : AssetDefinition} {x : F} {v : Option Amount}
    (h : ViewableData.fetchAmount (boolF ad.policy.reveal_map[2] * x) ad = .ok v) :
    if ad.policy.reveal_map[2] then ∃ a, v = some a ∧ Amount.toF a = x else v = none := by
  cases hb : ad.policy.reveal_map[2] with
  | false =>
    rw [fetchAmount_hidden _ _ hb] at h
    cases h
    rfl
  | true =>
    rw [hb] at h
    simp only [boolF, if_true, one_mul] at h
    rw [if_pos rfl]
    by_cases hx : x.val < 2 ^ 128
    · have e : x = Amount.toF ⟨x.val, hx⟩ := by
        unfold Amount.toF
        rw [f_cast_val]
      rw [e, fetchAmount_toF, hb] at h
      cases h
      exact ⟨_, rfl, e.symm⟩
    · exfalso
      unfold ViewableData.fetchAmount AssetPolicy.isAmountRevealed RevealMap.isAmountRevealed at h
      rw [hb, if_pos rfl, if_pos (by omega)] at h
      cases h

/-- one created record -/
theorem fromXfr_shows_output {ad : AssetDefinition} (h01 : ad.policy.reveal_map[0] = ad.policy.reveal_map[1]) {o : RecordV}
    {v : ViewableData}
    (h : ViewableData.fromXfrDataAndAsset ad (outputMsgV ad.policy.reveal_map.toScalar o) .output = .ok v) :
    ShowsOutput ad v o := by
  rw [outputMsgV_host, ← h01] at h
  unfold ViewableData.fromXfrDataAndAsset at h
  simp only [List.length_cons, List.length_nil, Nat.zero_add, Nat.reduceAdd, ne_eq, not_true_eq_false, if_false,
    bind_ok_iff, fetchBlind_masked] at h
  obtain ⟨ua, h1, am, h2, at', h3, h4⟩ := h
  cases h3
  cases h4
  exact ⟨⟨rfl, fetchAddress_shows h1, fetchAmount_shows h2, rfl⟩, rfl⟩

/-- one spent record that is not a dummy -/
theorem fromXfr_shows_input {ad : AssetDefinition} {i : InputV} (hd : i.ro.isDummy = false) (ha : i.cred.attrs.length = 8)
    {v : ViewableData}
    (h : ViewableData.fromXfrDataAndAsset ad (inputMsgV ad.policy.reveal_map.toScalar i) .input = .ok v) :
    ShowsInput ad v i := by
  have hl : (List.zipWith (fun (b : Bool) v => boolF b * v) (ad.policy.reveal_map.toList.drop 4) i.cred.attrs).length = 8 := by
    rw [List.length_zipWith, List.length_drop, Vector.length_toList, ha]
    rfl
  rw [inputMsgV_host hd ha] at h
  unfold ViewableData.fromXfrDataAndAsset at h
  simp only [List.length_append, hl, List.length_cons, List.length_nil, Nat.zero_add, Nat.reduceAdd, ne_eq,
    VIEWABLE_DATA_LEN, REVEAL_MAP_LEN, ATTRS_LEN, not_true_eq_false, if_false, List.cons_append, List.nil_append,
    bind_ok_iff, fetchBlind_masked, fetchAttrs_masked ad ha] at h
  obtain ⟨ua, h1, am, h2, at', h3, h4⟩ := h
  cases h3
  cases h4
  exact ⟨⟨rfl, fetchAddress_shows h1, fetchAmount_shows h2, rfl⟩, rfl⟩

/-- one spent dummy -/
theorem fromXfr_shows_dummy {ad : AssetDefinition} {i : InputV} (hd : i.ro.isDummy = true) (ha : i.cred.attrs.length = 8)
    {v : ViewableData}
    (h : ViewableData.fromXfrDataAndAsset ad (inputMsgV ad.policy.reveal_map.toScalar i) .input = .ok v) :
    v.user_address = some 0 := by
  have hl : (List.zipWith (fun (b : Bool) v => boolF b * v) (ad.policy.reveal_map.toList.drop 4) i.cred.attrs).length = 8 := by
    rw [List.length_zipWith, List.length_drop, Vector.length_toList, ha]
    rfl
  have hz : ViewableData.fetchAddress 0 1 ad = .ok (some 0) := by
    have := fetchAddress_pt ad 0
    rwa [if_pos (Or.inr rfl), ptX, ptY, E.xy_zero] at this
  rw [inputMsgV_dummy hd ha] at h
  unfold ViewableData.fromXfrDataAndAsset at h
  simp only [List.length_append, hl, List.length_cons, List.length_nil, Nat.zero_add, Nat.reduceAdd, ne_eq,
    VIEWABLE_DATA_LEN, REVEAL_MAP_LEN, ATTRS_LEN, not_true_eq_false, if_false, List.cons_append, List.nil_append,
    bind_ok_iff, hz] at h
  obtain ⟨ua, h1, am, h2, at', h3, h4⟩ := h
  cases h1
  cases h4
  rfl

theorem openOutputs_shows {ad : AssetDefinition} (h01 : ad.policy.reveal_map[0] = ad.policy.reveal_map[1]) :
    ∀ {os : List RecordV} {vs : List ViewableData},
    openOutputs ad os.length (os.flatMap (outputMsgV ad.policy.reveal_map.toScalar)) = .ok vs →
    List.Forall₂ (ShowsOutput ad) vs os
  | [], vs, h => by
    cases h
    exact .nil
  | o :: os, vs, h => by
    rw [List.length_cons, openOutputs_cons] at h
    simp only [bind_ok_iff] at h
    obtain ⟨v, h1, vs', h2, h3⟩ := h
    cases h3
    exact .cons (fromXfr_shows_output h01 h1) (openOutputs_shows h01 h2)

theorem openInputs_shows {ad : AssetDefinition} : ∀ {is : List InputV} {rest : List F}
    {r : List ViewableData × List F}, (∀ i ∈ is, i.cred.attrs.length = 8) →
    openInputs ad is.length (is.flatMap (inputMsgV ad.policy.reveal_map.toScalar) ++ rest) = .ok r →
    r.2 = rest ∧ List.Forall₂ (ShowsInput ad) r.1 (shownInputs ad is)
  | [], rest, r, _, h => by
    cases h
    exact ⟨rfl, .nil⟩
  | i :: is, rest, r, ha, h => by
    have hl := inputMsgV_length (map := ad.policy.reveal_map.toScalar) (ha i List.mem_cons_self)
    simp only [List.flatMap_cons, List.append_assoc, List.length_cons, openInputs] at h
    rw [if_neg (by rw [List.length_append, hl]; simp [VIEWABLE_DATA_LEN, REVEAL_MAP_LEN, ATTRS_LEN]),
      show VIEWABLE_DATA_LEN = 12 from rfl, ← hl, List.take_left' rfl, List.drop_left' rfl] at h
    simp only [bind_ok_iff] at h
    obtain ⟨v, h1, r', h2, h3⟩ := h
    obtain ⟨e1, e2⟩ := openInputs_shows (fun j hj => ha j (List.mem_cons_of_mem _ hj)) h2
    cases h3
    refine ⟨e1, ?_⟩
    unfold shownInputs at e2 ⊢
    cases hd : i.ro.isDummy with
    | true =>
      rw [List.filter_cons_of_neg (by simp [hd]), if_neg]
      · exact e2
      · rw [fromXfr_shows_dummy hd (ha i List.mem_cons_self) h1]
        simp
    | false =>
      have hs := fromXfr_shows_input hd (ha i List.mem_cons_self) h1
      have ho := hs.1.owner
      cases hb : ad.policy.reveal_map[0] with
      | false =>
        rw [hb] at ho e2
        simp only [Bool.false_eq_true, if_false] at ho
        rw [List.filter_cons_of_pos (by simp [hd]), if_pos (Or.inl ho)]
        exact .cons hs e2
      | true =>
        rw [hb] at ho e2
        simp only [if_true] at ho
        obtain ⟨P, hP, hxy⟩ := ho
        by_cases h0 : P = 0
        · rw [List.filter_cons_of_neg (by simp [hd, ← hxy, h0]), if_neg (by simp [hP, h0])]
          exact e2
        · rw [List.filter_cons_of_pos, if_pos (by simp [hP, h0])]
          · exact .cons hs e2
          · have : i.ro.owner_addr ≠ E.xy 0 := by
              rw [← hxy]
              exact fun e => h0 (xy_inj e)
            simp [hd, this]

end Cap
