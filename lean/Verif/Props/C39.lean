/-
C39: opening viewing memos never panics and refuses what does not fit.

status: partial
note: open_mint_viewing_memo never panics and refuses exactly memos of the wrong length and, if addresses are revealed, plaintexts that are not points (C39_mint_total, C39_mint_exact). open_transfer_viewing_memo never panics on a note with at least one nullifier and one commitment (C39_transfer_partial), and C39_transfer_exact says exactly when it succeeds: the key is the policy's viewer, the length fits, the first element is the asset code, and every revealed address is a point and every revealed amount fits in 128 bits; otherwise one of two errors is returned (C39_refusals). FALSE for other notes: `len() - 1` underflows. C39_accepted_panics: from every accepted transfer, whatever the key, one can make another accepted one (same proof) on which the viewer panics in debug builds; C39_release_panics: in release builds the viewer panics on a note without nullifiers and with four commitments. C39_mint_any_key delimits the claim for mints: whose key it is, is not checked, so any key pair "opens" a mint whose policy hides the address.
-/
import Verif.Lemmas.Memo
import Verif.Lemmas.Verify
import Verif.Props.C17
import Verif.Props.C18

namespace Cap

open Spec

variable [E : CapEnv]

/-- A piece of plaintext can be shown under the policy of `ad`: a revealed address is a point, a revealed amount fits
in 128 bits. -/
structure Readable (ad : AssetDefinition) (x y amount : F) : Prop where
  address : ad.policy.reveal_map[0] = true → ∃ P : Pt, E.xy P = (x, y)
  amount : ad.policy.reveal_map[2] = true → amount.val < 2 ^ 128

theorem fetchAddress_cases (x y : F) (ad : AssetDefinition) :
    ((ad.policy.reveal_map[0] = true → ∃ P : Pt, E.xy P = (x, y)) ∧ ∃ a, ViewableData.fetchAddress x y ad = .ok a) ∨
    (¬ (ad.policy.reveal_map[0] = true → ∃ P : Pt, E.xy P = (x, y)) ∧
      ViewableData.fetchAddress x y ad = .error .failedViewableMemoDecryption) := by
  unfold ViewableData.fetchAddress
  cases h : E.ofXY (x, y) with
  | none =>
    have hn : ¬ ∃ P : Pt, E.xy P = (x, y) := by
      rintro ⟨P, hP⟩
      rw [← hP, ofXY_xy] at h
      cases h
    by_cases hb : ad.policy.reveal_map[0] = true
    · exact Or.inr ⟨fun h' => hn (h' hb), by simp [RevealMap.isUserAddressRevealed, hb]⟩
    · exact Or.inl ⟨fun h' => absurd h' hb, none, by simp [RevealMap.isUserAddressRevealed, hb]⟩
  | some P =>
    refine Or.inl ⟨fun _ => ⟨P, (E.ofXY_iff _ _).1 h⟩, ?_⟩
    by_cases hb : ad.policy.isUserAddressRevealed = true ∨ P = 0
    · exact ⟨some P, by simp [hb]⟩
    · exact ⟨none, by simp [hb]⟩

theorem fetchAmount_cases (v : F) (ad : AssetDefinition) :
    ((ad.policy.reveal_map[2] = true → v.val < 2 ^ 128) ∧ ∃ a, ViewableData.fetchAmount v ad = .ok a) ∨
    (¬ (ad.policy.reveal_map[2] = true → v.val < 2 ^ 128) ∧
      ViewableData.fetchAmount v ad = .error .failedViewableMemoDecryption) := by
  unfold ViewableData.fetchAmount AssetPolicy.isAmountRevealed RevealMap.isAmountRevealed
  by_cases hb : ad.policy.reveal_map[2] = true
  · by_cases hv : v.val > 2 ^ 128 - 1
    · refine Or.inr ⟨fun h => ?_, by rw [if_pos hb, if_pos hv]⟩
      have := h hb
      omega
    · exact Or.inl ⟨fun _ => by omega, _, by rw [if_pos hb, if_neg hv]⟩
  · exact Or.inl ⟨fun h => absurd h hb, none, by rw [if_neg hb]⟩

theorem fetchAttrs_total (ad : AssetDefinition) : ∀ (l : List F) (i : ℕ), i + l.length ≤ 8 →
    ∃ r, ViewableData.fetchAttrs ad i l = .ok r
  | [], _, _ => ⟨[], rfl⟩
  | a :: l, i, h => by
    simp only [List.length_cons] at h
    obtain ⟨r, hr⟩ := fetchAttrs_total ad l (i + 1) (by omega)
    have hi : ∃ b, ad.policy.reveal_map.isIthAttributeRevealed i = .ok b := by
      unfold RevealMap.isIthAttributeRevealed
      rw [dif_neg (by simp only [ATTRS_LEN]; omega)]
      exact ⟨_, rfl⟩
    obtain ⟨b, hb⟩ := hi
    refine ⟨(if b then some a else none) :: r, ?_⟩
    unfold ViewableData.fetchAttrs
    exact bind_ok_iff.2 ⟨b, hb, bind_ok_iff.2 ⟨r, hr, rfl⟩⟩

/-- the number of elements of a piece -/
def InOrOut.size : InOrOut → ℕ
  | .input => 12
  | .output => 4

theorem fromXfr_cases (ad : AssetDefinition) (x y am bl : F) (attrs : List F) (io : InOrOut)
    (hl : attrs.length + 4 = io.size) :
    (Readable ad x y am ∧ ∃ v, ViewableData.fromXfrDataAndAsset ad (x :: y :: am :: bl :: attrs) io = .ok v) ∨
    (¬ Readable ad x y am ∧
      ViewableData.fromXfrDataAndAsset ad (x :: y :: am :: bl :: attrs) io = .error .failedViewableMemoDecryption) := by
  unfold ViewableData.fromXfrDataAndAsset
  dsimp only
  rw [if_neg (by
    cases io with
    | input => exact not_not.2 (show attrs.length + 4 = 12 from hl)
    | output => exact not_not.2 (show attrs.length + 4 = 4 from hl))]
  rcases fetchAddress_cases x y ad with ⟨h1, a, ha⟩ | ⟨h1, ha⟩
  · rcases fetchAmount_cases am ad with ⟨h2, m, hm⟩ | ⟨h2, hm⟩
    · refine Or.inl ⟨⟨h1, h2⟩, ?_⟩
      cases io with
      | input =>
        obtain ⟨r, hr⟩ := fetchAttrs_total ad attrs 0 (by simp only [InOrOut.size] at hl; omega)
        exact ⟨_, bind_ok_iff.2 ⟨a, ha, bind_ok_iff.2 ⟨m, hm, bind_ok_iff.2 ⟨r, hr, rfl⟩⟩⟩⟩
      | output => exact ⟨_, bind_ok_iff.2 ⟨a, ha, bind_ok_iff.2 ⟨m, hm, bind_ok_iff.2 ⟨_, rfl, rfl⟩⟩⟩⟩
    · refine Or.inr ⟨fun h => h2 h.amount, ?_⟩
      rw [ha, hm]; rfl
  · refine Or.inr ⟨fun h => h1 h.address, ?_⟩
    rw [ha]; rfl

/-- the piece of plaintext that starts at `off` can be shown -/
def PieceReadable (ad : AssetDefinition) (pt : List F) (off : ℕ) : Prop :=
  ∃ x y am, pt[off]? = some x ∧ pt[off + 1]? = some y ∧ pt[off + 2]? = some am ∧ Readable ad x y am

theorem piece_cases (ad : AssetDefinition) (pt : List F) (io : InOrOut) (hl : io.size ≤ pt.length) :
    (PieceReadable ad pt 0 ∧ ∃ v, ViewableData.fromXfrDataAndAsset ad (pt.take io.size) io = .ok v) ∨
    (¬ PieceReadable ad pt 0 ∧
      ViewableData.fromXfrDataAndAsset ad (pt.take io.size) io = .error .failedViewableMemoDecryption) := by
  have h4 : 4 ≤ io.size := by cases io <;> simp [InOrOut.size]
  match pt, hl with
  | x :: y :: am :: bl :: rest, hl =>
    have e : (x :: y :: am :: bl :: rest).take io.size = x :: y :: am :: bl :: rest.take (io.size - 4) := by
      obtain ⟨k, hk⟩ : ∃ k, io.size = k + 4 := ⟨io.size - 4, by omega⟩
      rw [hk]
      simp [List.take]
    have hiff : PieceReadable ad (x :: y :: am :: bl :: rest) 0 ↔ Readable ad x y am := by
      constructor
      · rintro ⟨x', y', am', hx, hy, ha, hr⟩
        simp only [List.getElem?_cons_zero, List.getElem?_cons_succ, Option.some.injEq, Nat.zero_add] at hx hy ha
        subst hx hy ha
        exact hr
      · exact fun hr => ⟨x, y, am, rfl, rfl, rfl, hr⟩
    rw [e, hiff]
    simp only [List.length_cons] at hl
    exact fromXfr_cases ad x y am bl _ io (by rw [List.length_take]; omega)
  | [], hl => simp only [List.length_nil] at hl; omega
  | [_], hl => simp only [List.length_cons, List.length_nil] at hl; omega
  | [_, _], hl => simp only [List.length_cons, List.length_nil] at hl; omega
  | [_, _, _], hl => simp only [List.length_cons, List.length_nil] at hl; omega

theorem PieceReadable.drop {ad : AssetDefinition} {pt : List F} {k off : ℕ} :
    PieceReadable ad (pt.drop k) off ↔ PieceReadable ad pt (k + off) := by
  simp only [PieceReadable, List.getElem?_drop, Nat.add_assoc]

theorem openInputs_cases (ad : AssetDefinition) : ∀ (n : ℕ) (pt : List F), 12 * n ≤ pt.length →
    ((∀ j < n, PieceReadable ad pt (12 * j)) ∧ ∃ vs, openInputs ad n pt = .ok (vs, pt.drop (12 * n))) ∨
    (¬ (∀ j < n, PieceReadable ad pt (12 * j)) ∧ openInputs ad n pt = .error .failedViewableMemoDecryption)
  | 0, pt, _ => Or.inl ⟨fun _ h => absurd h (Nat.not_lt_zero _), [], by simp [openInputs]⟩
  | n + 1, pt, hl => by
    have ih := openInputs_cases ad n (pt.drop 12) (by rw [List.length_drop]; omega)
    have hp := piece_cases ad pt .input (by simp only [InOrOut.size]; omega)
    unfold openInputs
    have e12 : VIEWABLE_DATA_LEN = 12 := rfl
    rw [e12, if_neg (show ¬ pt.length < 12 by omega)]
    have hsplit : (∀ j < n + 1, PieceReadable ad pt (12 * j)) ↔
        PieceReadable ad pt 0 ∧ ∀ j < n, PieceReadable ad (pt.drop 12) (12 * j) := by
      constructor
      · intro h
        exact ⟨by simpa using h 0 (by omega), fun j hj => PieceReadable.drop.2 (by
          have := h (j + 1) (by omega)
          rwa [Nat.mul_succ, Nat.add_comm] at this)⟩
      · rintro ⟨h0, h⟩ j hj
        cases j with
        | zero => simpa using h0
        | succ j =>
          have := PieceReadable.drop.1 (h j (by omega))
          rwa [Nat.mul_succ, Nat.add_comm]
    rw [hsplit]
    rcases hp with ⟨h1, v, hv⟩ | ⟨h1, hv⟩
    · rcases ih with ⟨h2, vs, hvs⟩ | ⟨h2, hvs⟩
      · refine Or.inl ⟨⟨h1, h2⟩, ?_⟩
        refine ⟨if v.user_address = none ∨ v.user_address ≠ some 0 then v :: vs else vs,
          bind_ok_iff.2 ⟨v, hv, bind_ok_iff.2 ⟨(vs, _), hvs, ?_⟩⟩⟩
        rw [List.drop_drop, Nat.mul_succ, Nat.add_comm 12]
      · refine Or.inr ⟨fun h => h2 h.2, ?_⟩
        rw [show ViewableData.fromXfrDataAndAsset ad (List.take 12 pt) .input = .ok v from hv, hvs]; rfl
    · refine Or.inr ⟨fun h => h1 h.1, ?_⟩
      rw [show ViewableData.fromXfrDataAndAsset ad (List.take 12 pt) .input = .error _ from hv]; rfl

theorem openOutputs_cases (ad : AssetDefinition) : ∀ (n : ℕ) (pt : List F), 4 * n ≤ pt.length →
    ((∀ j < n, PieceReadable ad pt (4 * j)) ∧ ∃ vs, openOutputs ad n pt = .ok vs) ∨
    (¬ (∀ j < n, PieceReadable ad pt (4 * j)) ∧ openOutputs ad n pt = .error .failedViewableMemoDecryption)
  | 0, pt, _ => Or.inl ⟨fun _ h => absurd h (Nat.not_lt_zero _), [], rfl⟩
  | n + 1, pt, hl => by
    have ih := openOutputs_cases ad n (pt.drop 4) (by rw [List.length_drop]; omega)
    have hp := piece_cases ad pt .output (by simp only [InOrOut.size]; omega)
    unfold openOutputs
    rw [if_neg (by omega)]
    have hsplit : (∀ j < n + 1, PieceReadable ad pt (4 * j)) ↔
        PieceReadable ad pt 0 ∧ ∀ j < n, PieceReadable ad (pt.drop 4) (4 * j) := by
      constructor
      · intro h
        exact ⟨by simpa using h 0 (by omega), fun j hj => PieceReadable.drop.2 (by
          have := h (j + 1) (by omega)
          rwa [Nat.mul_succ, Nat.add_comm] at this)⟩
      · rintro ⟨h0, h⟩ j hj
        cases j with
        | zero => simpa using h0
        | succ j =>
          have := PieceReadable.drop.1 (h j (by omega))
          rwa [Nat.mul_succ, Nat.add_comm]
    rw [hsplit]
    rcases hp with ⟨h1, v, hv⟩ | ⟨h1, hv⟩
    · rcases ih with ⟨h2, vs, hvs⟩ | ⟨h2, hvs⟩
      · exact Or.inl ⟨⟨h1, h2⟩, _, bind_ok_iff.2 ⟨v, hv, bind_ok_iff.2 ⟨vs, hvs, rfl⟩⟩⟩
      · refine Or.inr ⟨fun h => h2 h.2, ?_⟩
        rw [show ViewableData.fromXfrDataAndAsset ad (List.take 4 pt) .output = .ok v from hv, hvs]; rfl
    · refine Or.inr ⟨fun h => h1 h.1, ?_⟩
      rw [show ViewableData.fromXfrDataAndAsset ad (List.take 4 pt) .output = .error _ from hv]; rfl

variable [S : CapExt]

/-- What a transfer memo must look like for the viewer `k` of `ad`: the right length for `a + 1` nullifiers and
`b + 1` commitments, the asset code first, and every piece can be shown. -/
structure MemoFits (k : ViewerKeyPair) (ad : AssetDefinition) (note : TransferNote) (a b : ℕ) : Prop where
  viewer : k.pubKey = ad.policy.viewer_pk
  length : (k.decrypt note.viewing_memo).length = 1 + 12 * a + 4 * b
  code : (k.decrypt note.viewing_memo)[0]? = some ad.code
  inputs : ∀ j < a, PieceReadable ad (k.decrypt note.viewing_memo) (1 + 12 * j)
  outputs : ∀ j < b, PieceReadable ad (k.decrypt note.viewing_memo) (1 + 12 * a + 4 * j)

/-- all outcomes at once -/
theorem openTransfer_cases (k : ViewerKeyPair) (b : Build) (ad : AssetDefinition) (note : TransferNote) {ni no : ℕ}
    (hi : note.inputs_nullifiers.length = ni + 1) (ho : note.output_commitments.length = no + 1)
    (ri : ni < 2 ^ 64 - 1) (ro : no < 2 ^ 64 - 1) :
    (MemoFits k ad note ni no ∧ ∃ v, k.openTransferViewingMemo b ad note = .ok v) ∨
    (¬ MemoFits k ad note ni no ∧
      (k.openTransferViewingMemo b ad note = .error .invalidParameter ∨
        k.openTransferViewingMemo b ad note = .error .failedViewableMemoDecryption)) := by
  unfold ViewerKeyPair.openTransferViewingMemo
  by_cases hk : k.pubKey = ad.policy.viewer_pk
  swap
  · rw [if_pos hk]
    exact Or.inr ⟨fun h => hk h.viewer, Or.inl rfl⟩
  rw [if_neg (not_not.2 hk)]
  have e1 : usizePred b note.inputs_nullifiers.length = .ok ni := by rw [hi]; rfl
  have e2 : usizePred b note.output_commitments.length = .ok no := by rw [ho]; rfl
  rw [e1, e2]
  have e3 : memoExpectedLen ni no = 1 + 12 * ni + 4 * no := by
    unfold memoExpectedLen
    rw [if_neg (by omega)]
    show 1 + ni * 12 + no * 4 = _
    omega
  simp only [bind, Except.bind, e3]
  by_cases hl : (k.decrypt note.viewing_memo).length = 1 + 12 * ni + 4 * no
  swap
  · rw [if_pos hl]
    exact Or.inr ⟨fun h => hl h.length, Or.inr rfl⟩
  rw [if_neg (not_not.2 hl)]
  cases hp : k.decrypt note.viewing_memo with
  | nil => rw [hp] at hl; simp only [List.length_nil] at hl; omega
  | cons c rest =>
    rw [hp] at hl
    simp only [List.length_cons] at hl
    dsimp only
    by_cases hc : ad.code = c
    swap
    · rw [if_pos hc]
      exact Or.inr ⟨fun h => hc (by have := h.code; rw [hp] at this; simpa using this.symm), Or.inr rfl⟩
    rw [if_neg (not_not.2 hc)]
    have shift : ∀ off, PieceReadable ad (c :: rest) (1 + off) ↔ PieceReadable ad rest off := fun off =>
      (PieceReadable.drop (pt := c :: rest) (k := 1)).symm
    have hin : (∀ j < ni, PieceReadable ad (k.decrypt note.viewing_memo) (1 + 12 * j)) ↔
        ∀ j < ni, PieceReadable ad rest (12 * j) := by
      rw [hp]
      exact forall₂_congr fun j _ => shift _
    have hout : (∀ j < no, PieceReadable ad (k.decrypt note.viewing_memo) (1 + 12 * ni + 4 * j)) ↔
        ∀ j < no, PieceReadable ad (rest.drop (12 * ni)) (4 * j) := by
      rw [hp]
      refine forall₂_congr fun j _ => ?_
      rw [PieceReadable.drop, Nat.add_assoc 1]
      exact shift _
    rcases openInputs_cases ad ni rest (by omega) with ⟨h1, vs, hvs⟩ | ⟨h1, hvs⟩
    · rcases openOutputs_cases ad no (rest.drop (12 * ni)) (by rw [List.length_drop]; omega) with
        ⟨h2, ws, hws⟩ | ⟨h2, hws⟩
      · refine Or.inl ⟨⟨hk, by rw [hp]; simpa using hl, by rw [hp, hc]; rfl, hin.2 h1, hout.2 h2⟩, (vs, ws), ?_⟩
        rw [hvs]
        dsimp only
        rw [hws]
      · refine Or.inr ⟨fun h => h2 (hout.1 h.outputs), Or.inr ?_⟩
        rw [hvs]
        dsimp only
        rw [hws]
    · refine Or.inr ⟨fun h => h1 (hin.1 h.inputs), Or.inr ?_⟩
      rw [hvs]

/-- **No panic, transfers.**  On every note with at least one nullifier and one commitment (and vectors that fit into
memory), whatever the memo, opening returns a value or one of two errors, in both builds. -/
theorem C39_transfer_partial (k : ViewerKeyPair) (b : Build) (ad : AssetDefinition) (note : TransferNote)
    (hi : note.inputs_nullifiers ≠ []) (ho : note.output_commitments ≠ [])
    (ri : note.inputs_nullifiers.length < 2 ^ 64) (ro : note.output_commitments.length < 2 ^ 64) :
    (∃ v, k.openTransferViewingMemo b ad note = .ok v) ∨
      k.openTransferViewingMemo b ad note = .error .invalidParameter ∨
      k.openTransferViewingMemo b ad note = .error .failedViewableMemoDecryption := by
  have p1 := List.length_pos_of_ne_nil hi
  have p2 := List.length_pos_of_ne_nil ho
  obtain ⟨x, hx⟩ : ∃ x, note.inputs_nullifiers.length = x + 1 := ⟨_, (Nat.sub_add_cancel p1).symm⟩
  obtain ⟨y, hy⟩ : ∃ y, note.output_commitments.length = y + 1 := ⟨_, (Nat.sub_add_cancel p2).symm⟩
  rcases openTransfer_cases k b ad note hx hy (by omega) (by omega) with ⟨-, h⟩ | ⟨-, h⟩
  · exact Or.inl h
  · exact Or.inr h

/-- **Exactly when a transfer memo opens.** -/
theorem C39_transfer_exact (k : ViewerKeyPair) (b : Build) (ad : AssetDefinition) (note : TransferNote) {ni no : ℕ}
    (hi : note.inputs_nullifiers.length = ni + 1) (ho : note.output_commitments.length = no + 1)
    (ri : ni < 2 ^ 64 - 1) (ro : no < 2 ^ 64 - 1) :
    (∃ v, k.openTransferViewingMemo b ad note = .ok v) ↔ MemoFits k ad note ni no := by
  rcases openTransfer_cases k b ad note hi ho ri ro with ⟨h1, h2⟩ | ⟨h1, h2⟩
  · exact iff_of_true h2 h1
  · refine iff_of_false ?_ h1
    rintro ⟨v, hv⟩
    rw [hv] at h2
    rcases h2 with h2 | h2 <;> cases h2

/-- **Refusals.**  A key that is not the policy's viewer key, a memo of the wrong length, and a memo for another asset
code are errors, in both builds. -/
theorem C39_refusals (k : ViewerKeyPair) (b : Build) (ad : AssetDefinition) (note : TransferNote) :
    (k.pubKey ≠ ad.policy.viewer_pk → k.openTransferViewingMemo b ad note = .error .invalidParameter) ∧
    (k.pubKey = ad.policy.viewer_pk → ∀ ni no : ℕ, note.inputs_nullifiers.length = ni + 1 →
      note.output_commitments.length = no + 1 → ni < 2 ^ 64 - 1 → no < 2 ^ 64 - 1 →
      (note.viewing_memo.data.length ≠ 1 + 12 * ni + 4 * no ∨
        (k.decrypt note.viewing_memo)[0]? ≠ some ad.code) →
      k.openTransferViewingMemo b ad note = .error .failedViewableMemoDecryption) := by
  constructor
  · intro h
    unfold ViewerKeyPair.openTransferViewingMemo
    rw [if_pos h]
  · intro hk ni no hi ho ri ro h
    have hlen : (k.decrypt note.viewing_memo).length = note.viewing_memo.data.length := by
      unfold ViewerKeyPair.decrypt
      exact removeStream_length _ _ _
    have hnot : ¬ MemoFits k ad note ni no := by
      intro hf
      rcases h with h | h
      · exact h (by rw [← hlen]; exact hf.length)
      · exact h hf.code
    rcases openTransfer_cases k b ad note hi ho ri ro with ⟨h1, -⟩ | ⟨-, h1⟩
    · exact absurd h1 hnot
    rcases h1 with h1 | h1
    · exfalso
      unfold ViewerKeyPair.openTransferViewingMemo at h1
      rw [if_neg (not_not.2 hk)] at h1
      have e1 : usizePred b note.inputs_nullifiers.length = .ok ni := by rw [hi]; rfl
      have e2 : usizePred b note.output_commitments.length = .ok no := by rw [ho]; rfl
      have e3 : memoExpectedLen ni no = 1 + 12 * ni + 4 * no := by
        unfold memoExpectedLen
        rw [if_neg (by omega)]
        show 1 + ni * 12 + no * 4 = _
        omega
      rw [e1, e2] at h1
      simp only [bind, Except.bind, e3, hlen] at h1
      rcases h with h | h
      · rw [if_pos h] at h1; cases h1
      · by_cases hl : note.viewing_memo.data.length = 1 + 12 * ni + 4 * no
        · rw [if_neg (not_not.2 hl)] at h1
          cases hp : k.decrypt note.viewing_memo with
          | nil => rw [hp] at h1; cases h1
          | cons c rest =>
            rw [hp] at h1 h
            dsimp only at h1
            rw [if_pos (fun hc => h (by rw [hc]; rfl))] at h1
            cases h1
        · rw [if_pos hl] at h1; cases h1
    · exact h1

/-- **Exactly when a mint memo opens**: three elements and, if addresses are revealed, the first two are the
coordinates of a point; then the value is determined, otherwise the error is this one.  It never panics. -/
theorem C39_mint_exact (k : ViewerKeyPair) (note : MintNote) :
    ((∃ v, k.openMintViewingMemo note = .ok v) ↔
      ∃ x y bl, k.decrypt note.viewing_memo = [x, y, bl] ∧
        (note.mint_asset_def.policy.reveal_map[0] = true → ∃ P : Pt, E.xy P = (x, y))) ∧
    ((∃ v, k.openMintViewingMemo note = .ok v) ∨
      k.openMintViewingMemo note = .error .failedViewableMemoDecryption) := by
  unfold ViewerKeyPair.openMintViewingMemo
  dsimp only
  by_cases hl : (k.decrypt note.viewing_memo).length = 3
  · rw [if_neg (not_not.2 hl)]
    obtain ⟨x, y, bl, hp⟩ := List.length_eq_three.1 hl
    rw [hp]
    have hform : (∃ x' y' bl', [x, y, bl] = [x', y', bl'] ∧
        (note.mint_asset_def.policy.reveal_map[0] = true → ∃ P : Pt, E.xy P = (x', y'))) ↔
        (note.mint_asset_def.policy.reveal_map[0] = true → ∃ P : Pt, E.xy P = (x, y)) := by
      constructor
      · rintro ⟨_, _, _, he, h⟩; cases he; exact h
      · exact fun h => ⟨_, _, _, rfl, h⟩
    rw [hform]
    unfold ViewableData.fromMintNote
    rcases fetchAddress_cases x y note.mint_asset_def with ⟨h1, a, ha⟩ | ⟨h1, ha⟩
    · have : ∃ v, (do
          let user_address ← ViewableData.fetchAddress x y note.mint_asset_def
          let amount :=
            if note.mint_asset_def.policy.reveal_map.isAmountRevealed then some note.mint_amount else none
          .ok (⟨note.mint_asset_def.code, user_address, amount,
            ViewableData.fetchBlindFactor bl note.mint_asset_def, []⟩ : ViewableData)) = (.ok v : Res ViewableData) :=
        ⟨_, bind_ok_iff.2 ⟨a, ha, rfl⟩⟩
      exact ⟨iff_of_true this h1, Or.inl this⟩
    · dsimp only
      rw [ha]
      exact ⟨iff_of_false (fun ⟨v, hv⟩ => by cases hv) h1, Or.inr rfl⟩
  · rw [if_pos hl]
    refine ⟨iff_of_false (fun ⟨v, hv⟩ => by cases hv) ?_, Or.inr rfl⟩
    rintro ⟨x, y, bl, h, -⟩
    rw [h] at hl
    exact hl rfl

/-- **No panic, mints.** -/
theorem C39_mint_total (k : ViewerKeyPair) (note : MintNote) : k.openMintViewingMemo note ≠ .error .panic := by
  intro h
  rcases (C39_mint_exact k note).2 with ⟨v, hv⟩ | hv <;> rw [hv] at h <;> cases h

/-- **A limit of the claim.**  Nothing ties the key to a mint: every key pair opens every mint memo of three elements if
the policy hides addresses, and takes whatever comes out as the blinding factor. -/
theorem C39_mint_any_key (k : ViewerKeyPair) (note : MintNote) (h3 : note.viewing_memo.data.length = 3)
    (hidden : note.mint_asset_def.policy.reveal_map[0] = false) :
    ∃ v, k.openMintViewingMemo note = .ok v := by
  have hlen : (k.decrypt note.viewing_memo).length = 3 := by
    unfold ViewerKeyPair.decrypt
    rw [removeStream_length, h3]
  obtain ⟨x, y, bl, hp⟩ := List.length_eq_three.1 hlen
  exact (C39_mint_exact k note).1.2 ⟨x, y, bl, hp, fun h => by rw [hidden] at h; cases h⟩

/-! ### Negations -/

/-- **Negation, debug builds.**  From every accepted transfer one can make an accepted note, with the same proof, on
which the viewer of any asset panics. -/
theorem C39_accepted_panics (n : TransferNote) (vk : TransferVerifyingKey) (root : F) (t : U64)
    (h : n.verify vk root t = .ok ()) :
    ∃ n' : TransferNote, n'.verify vk root t = .ok () ∧ n'.proof = n.proof ∧ n'.aux_info = n.aux_info ∧
      n'.viewing_memo = n.viewing_memo ∧
      n'.inputs_nullifiers ++ n'.output_commitments = n.inputs_nullifiers ++ n.output_commitments ∧
      ∀ (k : ViewerKeyPair) (ad : AssetDefinition), k.pubKey = ad.policy.viewer_pk →
        k.openTransferViewingMemo .debug ad n' = .error .panic := by
  refine ⟨{ n with inputs_nullifiers := [], output_commitments := n.inputs_nullifiers ++ n.output_commitments }, ?_,
    rfl, rfl, rfl, rfl, ?_⟩
  · rw [TransferNote.verify_ok] at h ⊢
    refine ⟨h.1, h.2.1, ?_⟩
    have : (TransferNote.pub { n with inputs_nullifiers := [], output_commitments := n.inputs_nullifiers ++ n.output_commitments }).toScalars = n.pub.toScalars := by
      simp [TransferNote.pub, TransferPublicInput.toScalars]
    rw [this]
    exact h.2.2
  · intro k ad hk
    unfold ViewerKeyPair.openTransferViewingMemo
    rw [if_neg (not_not.2 hk)]
    rfl

/-- **Negation, release builds.**  A note without nullifiers and with four commitments, whose memo has one element,
makes the viewer panic: the expected length wraps around to 1. -/
theorem C39_release_panics (n : TransferNote) (k : ViewerKeyPair) (ad : AssetDefinition)
    (hk : k.pubKey = ad.policy.viewer_pk) (hi : n.inputs_nullifiers = []) (ho : n.output_commitments.length = 4)
    (hm : k.decrypt n.viewing_memo = [ad.code]) :
    k.openTransferViewingMemo .release ad n = .error .panic := by
  unfold ViewerKeyPair.openTransferViewingMemo
  rw [if_neg (not_not.2 hk), hi, ho, hm]
  have e1 : usizePred .release ([] : List F).length = .ok (2 ^ 64 - 1) := rfl
  have e2 : usizePred .release 4 = .ok 3 := rfl
  have e3 : memoExpectedLen (2 ^ 64 - 1) 3 = 1 := by decide +kernel
  rw [e1, e2]
  simp only [bind, Except.bind, e3]
  rw [if_neg (by simp), if_neg (not_not.2 rfl)]
  have e4 : openInputs ad (2 ^ 64 - 1) ([] : List F) = .error .panic := by
    rw [show 2 ^ 64 - 1 = (2 ^ 64 - 2) + 1 by norm_num]
    unfold openInputs
    rw [if_pos (by simp [VIEWABLE_DATA_LEN])]
  rw [e4]

end Cap

namespace Cap.Examples
open Toy Spec

/-- the viewer's key pair, the example transfer: everything fits -/
example : ∃ v, viewer.openTransferViewingMemo .debug asset xfrNote = .ok v ∧ v.1.length = 1 ∧ v.2.length = 2 := by
  exact ⟨_, okVal_eq _ (by decide +kernel), by decide +kernel, by decide +kernel⟩
example : xfrNote.inputs_nullifiers.length = 2 + 1 ∧ xfrNote.output_commitments.length = 2 + 1 := by
  constructor <;> decide +kernel

/-- another key, a shortened memo and another asset code are refused -/
example : (ViewerKeyPair.openTransferViewingMemo ⟨(3 : ZMod r)⟩ .debug asset xfrNote matches .error .invalidParameter) = true ∧
    (viewer.openTransferViewingMemo .debug asset
      { xfrNote with viewing_memo := ⟨xfrNote.viewing_memo.ephemeral, xfrNote.viewing_memo.data.tail⟩ }
        matches .error .failedViewableMemoDecryption) = true ∧
    (viewer.openTransferViewingMemo .debug { asset with code := 12345 } xfrNote
        matches .error .failedViewableMemoDecryption) = true := by
  refine ⟨?_, ?_, ?_⟩ <;> decide +kernel

/-- a note as in `C39_release_panics` -/
example : ∃ n : TransferNote, n.inputs_nullifiers = [] ∧ n.output_commitments.length = 4 ∧
    viewer.pubKey = asset.policy.viewer_pk ∧ viewer.decrypt n.viewing_memo = [asset.code] :=
  ⟨{ xfrNote with inputs_nullifiers := [], output_commitments := [1, 2, 3, 4],
                  viewing_memo := viewerEncrypt viewer.pubKey (5 : ZMod r) [asset.code] }, rfl, rfl,
    by decide +kernel, by decide +kernel⟩

/-- an accepted note as in `C39_accepted_panics` -/
example : xfrNote.verify xfrVk xfrNote.aux_info.merkle_root 900 = .ok () := xfrNote_verify 900 (by decide)

/-- the example mint opens for its viewer -/
example : (viewer.openMintViewingMemo mintNote matches .ok _) = true := by decide +kernel

end Cap.Examples
