/-
Helper lemmas: what `verify` checks.
-/
import Verif.Lemmas.RevealMap
import Verif.Lemmas.Sum

namespace Cap

variable [E : CapEnv] [S : CapExt]

theorem TransferNote.checkInstance_ok {n : TransferNote} {root : F} {t : U64} {pi : TransferPublicInput} :
    n.checkInstance root t = .ok pi ↔
      root = n.aux_info.merkle_root ∧ t ≤ n.aux_info.valid_until ∧ pi = n.pub := by
  unfold TransferNote.checkInstance TransferNote.pub
  split
  · rename_i h; simp [h]
  · rename_i h
    simp only [ne_eq, not_not] at h
    subst h
    split
    · rename_i ht
      simp only [reduceCtorEq, true_and, false_iff, not_and]
      intro h
      exact absurd h (not_le.2 ht)
    · rename_i ht
      simp only [Except.ok.injEq, true_and, not_lt.1 ht, eq_comm]

theorem MintNote.checkInstance_ok {n : MintNote} {root : F} {pi : MintPublicInput} :
    n.checkInstance root = .ok pi ↔ root = n.aux_info.merkle_root ∧ pi = n.pub := by
  unfold MintNote.checkInstance MintNote.pub
  split
  · rename_i h; simp [h]
  · rename_i h
    simp only [ne_eq, not_not] at h
    subst h
    simp only [Except.ok.injEq, true_and, eq_comm]

theorem FreezeNote.checkInstance_ok {n : FreezeNote} {root : F} {pi : FreezePublicInput} :
    n.checkInstance root = .ok pi ↔ root = n.aux_info.merkle_root ∧ pi = n.pub := by
  unfold FreezeNote.checkInstance FreezeNote.pub
  split
  · rename_i h; simp [h]
  · rename_i h
    simp only [ne_eq, not_not] at h
    subst h
    simp only [Except.ok.injEq, true_and, eq_comm]

/-- `TransferNote::verify` accepts exactly if root, time and proof are right. -/
theorem TransferNote.verify_ok {n : TransferNote} {vk : TransferVerifyingKey} {root : F} {t : U64} :
    n.verify vk root t = .ok () ↔
      root = n.aux_info.merkle_root ∧ t ≤ n.aux_info.valid_until ∧
      S.verify vk.key n.pub.toScalars n.proof
        (E.verKeyBytes n.aux_info.txn_memo_ver_key ++ n.aux_info.extra_proof_bound_data) = true := by
  unfold TransferNote.verify
  rw [bind_ok_iff]
  constructor
  · rintro ⟨pi, h1, h2⟩
    obtain ⟨h3, h4, rfl⟩ := TransferNote.checkInstance_ok.1 h1
    exact ⟨h3, h4, ensure_ok_iff.1 h2⟩
  · rintro ⟨h1, h2, h3⟩
    exact ⟨n.pub, TransferNote.checkInstance_ok.2 ⟨h1, h2, rfl⟩, ensure_ok_iff.2 h3⟩

/-- `MintNote::verify` accepts exactly if root, asset code and proof are right. -/
theorem MintNote.verify_ok {n : MintNote} {vk : MintVerifyingKey} {root : F} :
    n.verify vk root = .ok () ↔
      root = n.aux_info.merkle_root ∧
      n.mint_asset_def.code = domesticFromInternal n.mint_internal_asset_code ∧
      S.verify vk.key n.pub.toScalars n.proof (E.verKeyBytes n.aux_info.txn_memo_ver_key) = true := by
  unfold MintNote.verify
  rw [bind_ok_iff]
  constructor
  · rintro ⟨pi, h1, h2⟩
    obtain ⟨h3, rfl⟩ := MintNote.checkInstance_ok.1 h1
    rw [bind_ok_iff] at h2
    obtain ⟨_, h4, h5⟩ := h2
    unfold verifyDomestic at h4
    split at h4
    · rename_i h; exact ⟨h3, h.symm, ensure_ok_iff.1 h5⟩
    · cases h4
  · rintro ⟨h1, h2, h3⟩
    refine ⟨n.pub, MintNote.checkInstance_ok.2 ⟨h1, rfl⟩, ?_⟩
    rw [bind_ok_iff]
    refine ⟨(), ?_, ensure_ok_iff.2 h3⟩
    unfold verifyDomestic
    rw [if_pos h2.symm]

/-- `FreezeNote::verify` accepts exactly if root and proof are right. -/
theorem FreezeNote.verify_ok {n : FreezeNote} {vk : FreezeVerifyingKey} {root : F} :
    n.verify vk root = .ok () ↔
      root = n.aux_info.merkle_root ∧
      S.verify vk.key n.pub.toScalars n.proof (E.verKeyBytes n.aux_info.txn_memo_ver_key) = true := by
  unfold FreezeNote.verify
  rw [bind_ok_iff]
  constructor
  · rintro ⟨pi, h1, h2⟩
    obtain ⟨h3, rfl⟩ := FreezeNote.checkInstance_ok.1 h1
    exact ⟨h3, ensure_ok_iff.1 h2⟩
  · rintro ⟨h1, h3⟩
    exact ⟨n.pub, FreezeNote.checkInstance_ok.2 ⟨h1, rfl⟩, ensure_ok_iff.2 h3⟩

/-! The host's list of public scalars is the circuit's. -/

omit S in
theorem ViewableMemo.toV_toScalars (m : ViewableMemo) : m.toV.toScalars = m.toScalars := rfl

omit S in
theorem TransferPublicInput.toV_toScalars (p : TransferPublicInput) : p.toV.toScalars = p.toScalars := rfl

omit S in
theorem AssetPolicy.toV_toScalars (p : AssetPolicy) : p.toV.toScalars = p.toScalars := rfl

omit S in
theorem MintPublicInput.toV_toScalars (p : MintPublicInput) : p.toV.toScalars = p.toScalars := rfl

omit S in
theorem FreezePublicInput.toV_toScalars (p : FreezePublicInput) (v : FreezePub) (h : p.toV = some v) :
    v.toScalars = p.toScalars := by
  unfold FreezePublicInput.toV at h
  split at h
  · rename_i h1 h2
    cases h
    simp [FreezePub.toScalars, FreezePublicInput.toScalars, h1, h2]
  · cases h

/-! Injectivity of the scalar encodings. -/

omit S in
theorem ViewableMemo.toScalars_inj {m m' : ViewableMemo} (h : m.toScalars = m'.toScalars) : m = m' := by
  obtain ⟨e, d⟩ := m
  obtain ⟨e', d'⟩ := m'
  simp only [ViewableMemo.toScalars, List.cons_append, List.nil_append, List.cons.injEq] at h
  rw [pt_xy_inj h.1 h.2.1, h.2.2]

omit S in
theorem AssetPolicy.toScalars_inj {q q' : AssetPolicy} (h : q.toScalars = q'.toScalars) : q = q' := by
  obtain ⟨a, b, c, d, e⟩ := q
  obtain ⟨a', b', c', d', e'⟩ := q'
  simp only [AssetPolicy.toScalars, List.cons.injEq, and_true] at h
  obtain ⟨h1, h2, h3, h4, h5, h6, h7, h8⟩ := h
  rw [RevealMap.toScalar_inj h1, pt_xy_inj h2 h3, pt_xy_inj h4 h5, pt_xy_inj h6 h7, Amount.toF_inj h8]

omit S in
theorem TransferPublicInput.toScalars_inj {p p' : TransferPublicInput}
    (hn : p.input_nullifiers.length = p'.input_nullifiers.length)
    (hc : p.output_commitments.length = p'.output_commitments.length)
    (h : p.toScalars = p'.toScalars) : p = p' := by
  obtain ⟨a, b, c, d, e, f, g⟩ := p
  obtain ⟨a', b', c', d', e', f', g'⟩ := p'
  simp only [TransferPublicInput.toScalars, List.cons_append, List.nil_append, List.cons.injEq,
    List.append_assoc] at h hn hc
  obtain ⟨h1, h2, h3, h4, h5⟩ := h
  obtain ⟨h6, h7⟩ := List.append_inj h5 hn
  obtain ⟨h8, h9⟩ := List.append_inj h7 hc
  rw [h1, h2, u64_inj h3, Amount.toF_inj h4, h6, h8, ViewableMemo.toScalars_inj h9]

omit S in
theorem FreezePublicInput.toScalars_inj {p p' : FreezePublicInput}
    (hn : p.input_nullifiers.length = p'.input_nullifiers.length)
    (h : p.toScalars = p'.toScalars) : p = p' := by
  obtain ⟨a, b, d, e, f⟩ := p
  obtain ⟨a', b', d', e', f'⟩ := p'
  simp only [FreezePublicInput.toScalars, List.cons_append, List.nil_append, List.cons.injEq] at h hn
  obtain ⟨h1, h2, h4, h5⟩ := h
  obtain ⟨h6, h7⟩ := List.append_inj h5 hn
  rw [h1, h2, Amount.toF_inj h4, h6, h7]

omit S in
theorem MintPublicInput.toScalars_inj {p p' : MintPublicInput} (h : p.toScalars = p'.toScalars) : p = p' := by
  obtain ⟨a, b, c, d, e, f, g, i, j, k, l⟩ := p
  obtain ⟨a', b', c', d', e', f', g', i', j', k', l'⟩ := p'
  simp only [MintPublicInput.toScalars, List.cons_append, List.nil_append, List.cons.injEq] at h
  obtain ⟨h1, h2, h3, h4, h5, h6, h7, h8, h9, h10⟩ := h
  obtain ⟨h11, h12⟩ := List.append_inj h10 (by simp [AssetPolicy.toScalars])
  rw [h1, h2, h3, Amount.toF_inj h4, h5, h6, Amount.toF_inj h7, h8, h9, AssetPolicy.toScalars_inj h11,
    ViewableMemo.toScalars_inj h12]

end Cap
