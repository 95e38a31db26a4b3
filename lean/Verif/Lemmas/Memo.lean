/-
Helper lemmas: decrypting viewing memos and reading the plaintext.
-/
import Verif.Lemmas.FieldSum
import Mathlib.Tactic.IntervalCases

namespace Cap

open Spec

variable [E : CapEnv]

/-! ### Decryption -/

theorem removeStream_applyStream (ks : ℕ → F) : ∀ (i : ℕ) (l : List F), removeStream ks i (applyStream ks i l) = l
  | _, [] => rfl
  | i, m :: ms => by
    rw [applyStream, removeStream, removeStream_applyStream ks (i + 1) ms, add_sub_cancel_right]

theorem removeStream_length (ks : ℕ → F) : ∀ (i : ℕ) (l : List F), (removeStream ks i l).length = l.length
  | _, [] => rfl
  | i, m :: ms => by rw [removeStream, List.length_cons, removeStream_length ks (i + 1) ms, List.length_cons]

theorem applyStream_inj (ks : ℕ → F) (i : ℕ) {l m : List F} (h : applyStream ks i l = applyStream ks i m) : l = m := by
  rw [← removeStream_applyStream ks i l, h, removeStream_applyStream]

/-- the viewer decrypts what the library encrypted to them -/
theorem decrypt_encrypt (k : ViewerKeyPair) (rand : Fr) (msg : List F) :
    k.decrypt (viewerEncrypt k.pubKey rand msg) = msg := by
  unfold ViewerKeyPair.decrypt viewerEncrypt ViewerKeyPair.pubKey
  simp only
  rw [smulFr_comm k.sk rand, removeStream_applyStream]

/-- the viewer decrypts what the circuit encrypted to them -/
theorem decrypt_derive (k : ViewerKeyPair) {memo : ViewableMemo} {msg : List F} {rand : F}
    (h : memo.toV = MemoV.derive (E.xy k.pubKey) msg rand) : k.decrypt memo = msg := by
  obtain ⟨e, data⟩ := memo
  simp only [ViewableMemo.toV, MemoV.derive, MemoV.mk.injEq] at h
  obtain ⟨h1, rfl⟩ := h
  have he := xy_inj h1
  unfold ViewerKeyPair.decrypt
  simp only
  have : E.xy (smulFr k.sk e) = E.ecMul rand.val (E.xy k.pubKey) := by
    rw [E.ecMul_xy, he, ViewerKeyPair.pubKey]
    unfold smulFr
    rw [← mul_nsmul, ← mul_nsmul, Nat.mul_comm]
  rw [this, removeStream_applyStream]

/-! ### Reading fields -/

theorem fetchAmount_toF (ad : AssetDefinition) (a : Amount) :
    ViewableData.fetchAmount (Amount.toF a) ad = .ok (if ad.policy.reveal_map[2] then some a else none) := by
  unfold ViewableData.fetchAmount AssetPolicy.isAmountRevealed RevealMap.isAmountRevealed
  cases h : ad.policy.reveal_map[2] with
  | false => simp
  | true =>
    have hlt := a.isLt
    rw [Amount.toF_val]
    simp only [if_true]
    rw [if_neg (by omega), leBytes_take 16 16, ofLe_leBytes _ _ (lt_of_lt_of_le hlt (by norm_num))]
    congr 2
    exact Fin.ext (by simp [Nat.mod_eq_of_lt hlt])

theorem fetchAmount_hidden (ad : AssetDefinition) (v : F) (h : ad.policy.reveal_map[2] = false) :
    ViewableData.fetchAmount v ad = .ok none := by
  unfold ViewableData.fetchAmount AssetPolicy.isAmountRevealed RevealMap.isAmountRevealed
  simp [h]

theorem fetchAddress_pt (ad : AssetDefinition) (P : Pt) :
    ViewableData.fetchAddress (ptX P) (ptY P) ad =
      .ok (if ad.policy.reveal_map[0] ∨ P = 0 then some P else none) := by
  unfold ViewableData.fetchAddress AssetPolicy.isUserAddressRevealed RevealMap.isUserAddressRevealed
  rw [xy_eta, ofXY_xy]
  simp only
  split <;> rfl

/-- `(0, 0)` is not a point -/
theorem ofXY_zero : E.ofXY (0, 0) = none := by
  cases h : E.ofXY (0, 0) with
  | none => rfl
  | some P => exact absurd ((E.ofXY_iff _ _).1 h) (E.xy_ne P)

theorem fetchAddress_zero (ad : AssetDefinition) :
    ViewableData.fetchAddress 0 0 ad =
      if ad.policy.reveal_map[0] then .error .failedViewableMemoDecryption else .ok none := by
  unfold ViewableData.fetchAddress RevealMap.isUserAddressRevealed
  rw [ofXY_zero]

/-- the twelve bits of a map -/
theorem RevealMap.bits (m : RevealMap) : m.toList =
    [m[0], m[1], m[2], m[3], m[4], m[5], m[6], m[7], m[8], m[9], m[10], m[11]] := by
  apply List.ext_getElem
  · simp
  · intro i h1 h2
    simp only [List.length_cons, List.length_nil, Nat.zero_add, Nat.reduceAdd] at h2
    interval_cases i <;> simp

omit E in
theorem list8 {α : Type} {l : List α} (h : l.length = 8) :
    ∃ a b c d e f g i, l = [a, b, c, d, e, f, g, i] := by
  match l, h with
  | [a, b, c, d, e, f, g, i], _ => exact ⟨a, b, c, d, e, f, g, i, rfl⟩

/-- the attributes part: bits 4 to 11 -/
theorem fetchAttrs_masked (ad : AssetDefinition) {attrs : List F} (h : attrs.length = 8) :
    ViewableData.fetchAttrs ad 0
      (List.zipWith (fun (b : Bool) v => boolF b * v) (ad.policy.reveal_map.toList.drop 4) attrs) =
      .ok (List.zipWith (fun b a => if b then some a else none) (ad.policy.reveal_map.toList.drop 4) attrs) := by
  obtain ⟨a, b, c, d, e, f, g, i, rfl⟩ := list8 h
  rw [RevealMap.bits]
  simp only [List.drop_succ_cons, List.drop_zero, List.zipWith_cons_cons, List.zipWith_nil_left,
    ViewableData.fetchAttrs, RevealMap.isIthAttributeRevealed, ATTRS_LEN, ASSET_TRACING_MAP_LEN]
  have key : ∀ (x : Bool) (y : F), (if x = true then some (boolF x * y) else none) = if x = true then some y else none := by
    intro x y; cases x <;> simp [boolF]
  simp [key, bind, Except.bind]

/-! ### The circuit's message on host values -/

/-- one input that is not a dummy -/
theorem inputMsgV_host {m : RevealMap} {i : InputV} (hd : i.ro.isDummy = false)
    (ha : i.cred.attrs.length = 8) :
    inputMsgV m.toScalar i = [boolF m[0] * i.ro.owner_addr.1, boolF m[0] * i.ro.owner_addr.2,
      boolF m[2] * i.ro.amount, boolF m[3] * i.ro.blind] ++
      List.zipWith (fun (b : Bool) v => boolF b * v) (m.toList.drop 4) i.cred.attrs := by
  obtain ⟨a, b, c, d, e, f, g, j, he⟩ := list8 ha
  rw [RevealMap.bits]
  simp only [inputMsgV, hd, Bool.false_eq_true, if_false, Bool.false_or, he, hadamardV, List.range'_succ,
    List.range'_zero, List.map_cons, List.map_nil, List.cons_append, List.nil_append, List.zipWith_cons_cons,
    List.zipWith_nil_left, List.drop_succ_cons, List.drop_zero,
    RevealMap.mapBit_toScalar m 0 (by norm_num), RevealMap.mapBit_toScalar m 2 (by norm_num)]
  norm_num
  simp only [RevealMap.mapBit_toScalar m 3 (by norm_num), RevealMap.mapBit_toScalar m 4 (by norm_num),
    RevealMap.mapBit_toScalar m 5 (by norm_num), RevealMap.mapBit_toScalar m 6 (by norm_num),
    RevealMap.mapBit_toScalar m 7 (by norm_num), RevealMap.mapBit_toScalar m 8 (by norm_num),
    RevealMap.mapBit_toScalar m 9 (by norm_num), RevealMap.mapBit_toScalar m 10 (by norm_num),
    RevealMap.mapBit_toScalar m 11 (by norm_num), and_self]

/-- one dummy input -/
theorem inputMsgV_dummy {m : RevealMap} {i : InputV} (hd : i.ro.isDummy = true)
    (ha : i.cred.attrs.length = 8) :
    inputMsgV m.toScalar i = [(0 : F), 1, boolF m[2] * i.ro.amount, boolF m[3] * i.ro.blind] ++
      List.zipWith (fun (b : Bool) v => boolF b * v) (m.toList.drop 4) i.cred.attrs := by
  obtain ⟨a, b, c, d, e, f, g, j, he⟩ := list8 ha
  rw [RevealMap.bits]
  simp only [inputMsgV, hd, if_true, Bool.true_or, he, hadamardV, List.range'_succ, neutral,
    List.range'_zero, List.map_cons, List.map_nil, List.cons_append, List.nil_append, List.zipWith_cons_cons,
    List.zipWith_nil_left, List.drop_succ_cons, List.drop_zero,
    RevealMap.mapBit_toScalar m 2 (by norm_num)]
  norm_num
  simp only [RevealMap.mapBit_toScalar m 3 (by norm_num), RevealMap.mapBit_toScalar m 4 (by norm_num),
    RevealMap.mapBit_toScalar m 5 (by norm_num), RevealMap.mapBit_toScalar m 6 (by norm_num),
    RevealMap.mapBit_toScalar m 7 (by norm_num), RevealMap.mapBit_toScalar m 8 (by norm_num),
    RevealMap.mapBit_toScalar m 9 (by norm_num), RevealMap.mapBit_toScalar m 10 (by norm_num),
    RevealMap.mapBit_toScalar m 11 (by norm_num), and_self, boolF, if_true, mul_one]

/-- one output -/
theorem outputMsgV_host (m : RevealMap) (o : RecordV) :
    outputMsgV m.toScalar o = [boolF m[0] * o.owner_addr.1, boolF m[1] * o.owner_addr.2,
      boolF m[2] * o.amount, boolF m[3] * o.blind] := by
  simp only [outputMsgV, ASSET_TRACING_MAP_LEN, hadamardV]
  rw [show List.range 4 = [0, 1, 2, 3] from rfl]
  simp only [List.map_cons, List.map_nil, List.zipWith_cons_cons, List.zipWith_nil_left,
    RevealMap.mapBit_toScalar m 0 (by norm_num), RevealMap.mapBit_toScalar m 1 (by norm_num),
    RevealMap.mapBit_toScalar m 2 (by norm_num), RevealMap.mapBit_toScalar m 3 (by norm_num)]

/-! ### Reading one record -/

/-- address, amount and blinding factor as the library encodes them when the two address bits agree -/
theorem fetchAddress_masked (ad : AssetDefinition) (P : Pt) :
    ViewableData.fetchAddress (boolF ad.policy.reveal_map[0] * (E.xy P).1) (boolF ad.policy.reveal_map[0] * (E.xy P).2)
      ad = .ok (if ad.policy.reveal_map[0] then some P else none) := by
  cases h : ad.policy.reveal_map[0] with
  | false =>
    simp only [boolF, Bool.false_eq_true, if_false, zero_mul]
    rw [fetchAddress_zero, h]
    rfl
  | true =>
    have := fetchAddress_pt ad P
    rw [h] at this
    simpa [boolF, ptX, ptY] using this

theorem fetchAmount_masked (ad : AssetDefinition) (a : Amount) :
    ViewableData.fetchAmount (boolF ad.policy.reveal_map[2] * Amount.toF a) ad =
      .ok (if ad.policy.reveal_map[2] then some a else none) := by
  cases h : ad.policy.reveal_map[2] with
  | false =>
    rw [fetchAmount_hidden _ _ h]
    rfl
  | true =>
    have := fetchAmount_toF ad a
    rw [h] at this
    simpa [boolF] using this

theorem fetchBlind_masked (ad : AssetDefinition) (b : F) :
    ViewableData.fetchBlindFactor (boolF ad.policy.reveal_map[3] * b) ad =
      if ad.policy.reveal_map[3] then some b else none := by
  unfold ViewableData.fetchBlindFactor RevealMap.isBlindingFactorRevealed
  cases h : ad.policy.reveal_map[3] <;> simp [boolF]

/-- the data of a spent record that is not a dummy -/
theorem fromXfr_input (ad : AssetDefinition) (ro : RecordOpening) {attrs : List F} (h : attrs.length = 8) :
    ViewableData.fromXfrDataAndAsset ad ([boolF ad.policy.reveal_map[0] * (E.xy ro.pub_key.address).1,
      boolF ad.policy.reveal_map[0] * (E.xy ro.pub_key.address).2,
      boolF ad.policy.reveal_map[2] * Amount.toF ro.amount, boolF ad.policy.reveal_map[3] * ro.blind] ++
      List.zipWith (fun (b : Bool) v => boolF b * v) (ad.policy.reveal_map.toList.drop 4) attrs) .input =
      .ok (viewInput ad ro attrs) := by
  unfold ViewableData.fromXfrDataAndAsset
  have hl : (List.zipWith (fun (b : Bool) v => boolF b * v) (ad.policy.reveal_map.toList.drop 4) attrs).length = 8 := by
    rw [List.length_zipWith, List.length_drop, Vector.length_toList, h]
    rfl
  simp only [List.length_append, List.length_cons, List.length_nil, hl, VIEWABLE_DATA_LEN, REVEAL_MAP_LEN, ATTRS_LEN,
    Nat.zero_add, Nat.reduceAdd, ne_eq, not_true_eq_false, if_false, List.cons_append, List.nil_append,
    fetchAddress_masked, fetchAmount_masked, fetchBlind_masked, fetchAttrs_masked ad h]
  rfl

/-- the data of a dummy: whatever is read, the owner is the neutral element -/
theorem fromXfr_dummy (ad : AssetDefinition) (a : Amount) (b : F) {attrs : List F} (h : attrs.length = 8) :
    ∃ v, ViewableData.fromXfrDataAndAsset ad ([(0 : F), 1,
      boolF ad.policy.reveal_map[2] * Amount.toF a, boolF ad.policy.reveal_map[3] * b] ++
      List.zipWith (fun (b : Bool) v => boolF b * v) (ad.policy.reveal_map.toList.drop 4) attrs) .input = .ok v ∧
      v.user_address = some 0 := by
  unfold ViewableData.fromXfrDataAndAsset
  have hl : (List.zipWith (fun (b : Bool) v => boolF b * v) (ad.policy.reveal_map.toList.drop 4) attrs).length = 8 := by
    rw [List.length_zipWith, List.length_drop, Vector.length_toList, h]
    rfl
  have hz : ViewableData.fetchAddress 0 1 ad = .ok (some 0) := by
    have := fetchAddress_pt ad 0
    simpa [ptX, ptY, E.xy_zero] using this
  simp only [List.length_append, List.length_cons, List.length_nil, hl, VIEWABLE_DATA_LEN, REVEAL_MAP_LEN, ATTRS_LEN,
    Nat.zero_add, Nat.reduceAdd, ne_eq, not_true_eq_false, if_false, List.cons_append, List.nil_append,
    hz, fetchAmount_masked, fetchBlind_masked, fetchAttrs_masked ad h]
  exact ⟨_, rfl, rfl⟩

/-- the data of a created record -/
theorem fromXfr_output (ad : AssetDefinition) (h01 : ad.policy.reveal_map[0] = ad.policy.reveal_map[1])
    (ro : RecordOpening) :
    ViewableData.fromXfrDataAndAsset ad [boolF ad.policy.reveal_map[0] * (E.xy ro.pub_key.address).1,
      boolF ad.policy.reveal_map[1] * (E.xy ro.pub_key.address).2,
      boolF ad.policy.reveal_map[2] * Amount.toF ro.amount, boolF ad.policy.reveal_map[3] * ro.blind] .output =
      .ok (viewOutput ad ro) := by
  unfold ViewableData.fromXfrDataAndAsset
  rw [← h01]
  simp only [List.length_cons, List.length_nil, Nat.zero_add, Nat.reduceAdd, ne_eq, not_true_eq_false, if_false,
    fetchAddress_masked, fetchAmount_masked, fetchBlind_masked]
  rfl

/-! ### Reading the lists -/

theorem reads_isDummy {ro : RecordOpening} {v : RecordV} (h : Reads ro v) :
    v.isDummy = decide (ro.asset_def.code = dummyCode) := by
  unfold RecordV.isDummy
  rw [← (reads_iff.1 h).2.1]

/-- `ros` are the host records of the inputs that are not dummies -/
theorem openInputs_seen (ad : AssetDefinition) : ∀ {is : List InputV} {ros : List RecordOpening},
    (∀ i ∈ is, i.cred.attrs.length = 8 ∧ (i.ro.isDummy = false ∨ i.ro.amount = 0)) →
    List.Forall₂ Reads ros ((is.filter (fun i => !i.ro.isDummy)).map (·.ro)) →
    (ad.policy.reveal_map[0] = true → ∀ ro ∈ ros, ro.pub_key.address ≠ 0) → ∀ rest : List F,
    openInputs ad is.length (is.flatMap (inputMsgV ad.policy.reveal_map.toScalar) ++ rest) =
      .ok (List.zipWith (viewInput ad) ros ((is.filter (fun i => !i.ro.isDummy)).map (·.cred.attrs)), rest)
  | [], ros, _, h, _, rest => by
    rw [List.filter_nil, List.map_nil, List.forall₂_nil_right_iff] at h
    subst h
    rfl
  | i :: is, ros, hi, h, ho, rest => by
    obtain ⟨ha, hz⟩ := hi i (by simp)
    have hi' : ∀ j ∈ is, j.cred.attrs.length = 8 ∧ (j.ro.isDummy = false ∨ j.ro.amount = 0) :=
      fun j hj => hi j (List.mem_cons_of_mem _ hj)
    have hz8 : (List.zipWith (fun (b : Bool) v => boolF b * v) (ad.policy.reveal_map.toList.drop 4)
        i.cred.attrs).length = 8 := by
      rw [List.length_zipWith, List.length_drop, Vector.length_toList, ha]
      rfl
    cases hd : i.ro.isDummy with
    | true =>
      have h0 : i.ro.amount = 0 := by
        rcases hz with hz | hz
        · rw [hd] at hz; cases hz
        · exact hz
      rw [List.filter_cons_of_neg (by simp [hd])] at h ⊢
      have ih := openInputs_seen ad hi' h ho rest
      have hm := inputMsgV_dummy (m := ad.policy.reveal_map) (i := i) hd ha
      have hl : (inputMsgV ad.policy.reveal_map.toScalar i).length = 12 := by rw [hm, List.length_append, hz8]; rfl
      have h0' : i.ro.amount = Amount.toF 0 := h0.trans Amount.toF_zero.symm
      rw [h0'] at hm
      obtain ⟨v, hv, hva⟩ := fromXfr_dummy ad 0 i.ro.blind ha
      rw [← hm] at hv
      simp only [List.flatMap_cons, List.append_assoc, List.length_cons, openInputs]
      rw [if_neg (by rw [List.length_append, hl]; simp [VIEWABLE_DATA_LEN, REVEAL_MAP_LEN, ATTRS_LEN]),
        show VIEWABLE_DATA_LEN = 12 from rfl, ← hl, List.take_left', List.drop_left', hv]
      · simp only [bind, Except.bind, ih, hva]
        simp
      · rfl
      · rfl
    | false =>
      rw [List.filter_cons_of_pos (by simp [hd]), List.map_cons] at h
      rw [List.filter_cons_of_pos (by simp [hd]), List.map_cons]
      obtain ⟨ro, ros', hr, hrs, rfl⟩ := List.forall₂_cons_right_iff.1 h
      have ih := openInputs_seen ad hi' hrs (fun hb r hr => ho hb r (List.mem_cons_of_mem _ hr)) rest
      obtain ⟨h1, -, h3, -, -, -, -, -, h9⟩ := reads_iff.1 hr
      have hm := inputMsgV_host (m := ad.policy.reveal_map) (i := i) hd ha
      have hl : (inputMsgV ad.policy.reveal_map.toScalar i).length = 12 := by rw [hm, List.length_append, hz8]; rfl
      rw [← h1, ← h9, ← h3] at hm
      have hv := fromXfr_input ad ro ha
      rw [← hm] at hv
      simp only [List.flatMap_cons, List.append_assoc, List.length_cons, openInputs]
      rw [if_neg (by rw [List.length_append, hl]; simp [VIEWABLE_DATA_LEN, REVEAL_MAP_LEN, ATTRS_LEN]),
        show VIEWABLE_DATA_LEN = 12 from rfl, ← hl, List.take_left', List.drop_left', hv]
      · have hne : (viewInput ad ro i.cred.attrs).user_address = none ∨
            (viewInput ad ro i.cred.attrs).user_address ≠ some 0 := by
          unfold viewInput viewOf
          cases hb : ad.policy.reveal_map[0] with
          | false => simp
          | true =>
            right
            simp only [if_true]
            exact fun he => ho hb ro (by simp) (Option.some.inj he)
        simp only [bind, Except.bind, ih]
        rw [if_pos hne, List.zipWith_cons_cons]
      · rfl
      · rfl

theorem openOutputs_seen (ad : AssetDefinition) (h01 : ad.policy.reveal_map[0] = ad.policy.reveal_map[1])
    {ros : List RecordOpening} {os : List RecordV} (h : List.Forall₂ Reads ros os) :
    openOutputs ad os.length (os.flatMap (outputMsgV ad.policy.reveal_map.toScalar)) =
      .ok (ros.map (viewOutput ad)) := by
  induction h with
  | nil => rfl
  | @cons ro o ros os hs _ ih =>
    obtain ⟨h1, -, h3, -, -, -, -, -, h9⟩ := reads_iff.1 hs
    have hm := outputMsgV_host ad.policy.reveal_map o
    rw [← h1, ← h9, ← h3] at hm
    have hv := fromXfr_output ad h01 ro
    rw [← hm] at hv
    have hl : (outputMsgV ad.policy.reveal_map.toScalar o).length = 4 := by rw [hm]; rfl
    simp only [List.flatMap_cons, List.length_cons, openOutputs]
    rw [if_neg (by rw [List.length_append, hl]; simp), ← hl, List.take_left', List.drop_left', hv]
    · simp only [bind, Except.bind, ih, List.map_cons]
    · rfl
    · rfl

/-! ### The threshold -/

/-- a range check of a difference of two small numbers -/
theorem sub_range {a b k : ℕ} (ha : a < 2 ^ 200) (hb : b < 2 ^ 200) (hk : k ≤ 200) :
    ((a : F) - (b : F)).val < 2 ^ k ↔ b ≤ a ∧ a - b < 2 ^ k := by
  have hp := E.p_gt
  have hk' : (2 : ℕ) ^ k ≤ 2 ^ 200 := Nat.pow_le_pow_right (by norm_num) hk
  have h1 : (2 : ℕ) ^ 200 + 2 ^ 200 < 2 ^ 252 := by norm_num
  by_cases h : b ≤ a
  · rw [← Nat.cast_sub h, natF_val (by omega)]
    simp [h]
  · constructor
    · intro hv
      exfalso
      have hz : (((((a : F) - (b : F)).val + (b - a) : ℕ)) : F) = 0 := by
        push_cast
        rw [f_cast_val, Nat.cast_sub (by omega)]
        ring
      rw [ZMod.natCast_eq_zero_iff] at hz
      have := Nat.le_of_dvd (by omega) hz
      omega
    · exact fun hv => absurd hv.1 h

/-- When the inputs' amounts are small, the circuit compares their sum with the threshold, but also asks that the
threshold exceed it by less than `2^127`. -/
theorem underLimit_iff {w : TransferWit} {t s : ℕ} (ht : t < 2 ^ 200) (hs : s < 2 ^ 200)
    (h1 : w.policy.reveal_threshold = (t : F)) (h2 : sumTail (w.inputs.map (·.ro.amount)) = (s : F)) :
    underLimit w = true ↔ s ≤ t ∧ t - s < 2 ^ 127 := by
  unfold underLimit
  rw [decide_eq_true_iff, h1, h2]
  exact sub_range ht hs (by norm_num [AMOUNT_LEN])

theorem reads_total {l : List RecordOpening} {m : List RecordV} (h : List.Forall₂ Reads l m) :
    natSum (m.map (·.amount)) = total l := by
  induction h with
  | nil => rfl
  | cons hr _ ih =>
    simp only [natSum, List.map_cons, List.sum_cons, total, reads_amount hr] at ih ⊢
    rw [ih]

/-- dummies do not count -/
theorem natSum_real : ∀ {is : List InputV}, (∀ i ∈ is, i.ro.isDummy = false ∨ i.ro.amount = 0) →
    natSum (is.map (·.ro.amount)) = natSum (((is.filter (fun i => !i.ro.isDummy)).map (·.ro)).map (·.amount))
  | [], _ => rfl
  | i :: is, h => by
    have ih := natSum_real (is := is) (fun j hj => h j (List.mem_cons_of_mem _ hj))
    simp only [natSum] at ih ⊢
    rw [List.map_cons, List.map_cons, List.sum_cons, ih]
    cases hd : i.ro.isDummy with
    | false => rw [List.filter_cons_of_pos (by simp [hd])]; rfl
    | true =>
      rw [List.filter_cons_of_neg (by simp [hd])]
      rcases h i (by simp) with h' | h'
      · rw [hd] at h'; cases h'
      · rw [h', ZMod.val_zero, zero_add]

theorem total_lt (l : List RecordOpening) : total l ≤ l.length * 2 ^ 128 := by
  induction l with
  | nil => simp [total]
  | cons a as ih =>
    simp only [total, List.map_cons, List.sum_cons, List.length_cons] at ih ⊢
    have := a.amount.isLt
    rw [Nat.add_mul, Nat.one_mul]
    omega

end Cap
