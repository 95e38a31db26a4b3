/-
Helper lemmas: what the circuit's functions are on variables made from host values.
-/
import Verif.Lemmas.Verify

namespace Cap

variable [E : CapEnv]

theorem two_toF : (2 : F) ≠ 0 := by
  intro h
  have := natF_inj (a := 2) (b := 0) (by norm_num) (by norm_num) (by simpa using h)
  omega

theorem native_ne_dummy : (nativeCode : F) ≠ dummyCode := by
  intro h
  have := natF_inj (a := 1) (b := 2) (by norm_num) (by norm_num)
    (by simpa [nativeCode, dummyCode] using h)
  omega

theorem nativeDef_ne_dummyDef : AssetDefinition.native ≠ AssetDefinition.dummy := fun h =>
  native_ne_dummy (congrArg AssetDefinition.code h)

theorem boolF_flag (f : FreezeFlag) : boolF f.toBool = ((f.toNat : ℕ) : F) := by
  cases f <;> simp [boolF, FreezeFlag.toBool, FreezeFlag.toNat]

theorem RecordOpening.toV_scalars (ro : RecordOpening) : ro.toV.scalars = ro.scalars := by
  simp only [RecordV.scalars, RecordOpening.toV, AssetPolicy.toV, RecordOpening.scalars, boolF_flag, ptX, ptY]

theorem RecordOpening.toV_commitment (ro : RecordOpening) : ro.toV.commitment = ro.commitment := by
  unfold RecordV.commitment RecordOpening.commitment
  rw [RecordOpening.toV_scalars]
  rfl

theorem deriveUserAddressV_frToFq (s : Fr) : deriveUserAddressV (frToFq s) = E.xy (smulFr s E.gen) := by
  unfold deriveUserAddressV smulFr
  rw [frToFq_val]

theorem deriveNullifierKeyV_host (s : Fr) (P : Pt) :
    deriveNullifierKeyV (frToFq s) (E.xy P) = if P = 0 then frToFq s else computeNullifierKey P s := by
  unfold deriveNullifierKeyV computeNullifierKey
  by_cases h : P = 0
  · rw [if_pos h, if_pos (xy_eq_neutral.2 h)]
  · rw [if_neg h, if_neg (fun h' => h (xy_eq_neutral.1 h')), E.ecMul_xy, frToFq_val]
    rfl

theorem spendNullifier_user (ro : RecordOpening) (acc : AccMemberWitness) (k : UserKeyPair) :
    spendNullifier ro.toV acc.toV (frToFq k.sk) .user =
      k.nullify ro.asset_def.policy.freezer_pk acc.uid ro.commitment := by
  unfold spendNullifier UserKeyPair.nullify nullifyV nullifyWithKey
  rw [RecordOpening.toV_commitment]
  rw [show spendOtherPk ro.toV .user = E.xy ro.asset_def.policy.freezer_pk from rfl, deriveNullifierKeyV_host]
  rfl

theorem spendNullifier_freezer (ro : RecordOpening) (acc : AccMemberWitness) (k : FreezerKeyPair)
    (h : ro.pub_key.address ≠ 0) :
    spendNullifier ro.toV acc.toV (frToFq k.sec_key) .freezer =
      k.nullify ro.pub_key.address acc.uid ro.commitment := by
  unfold spendNullifier FreezerKeyPair.nullify nullifyV nullifyWithKey
  rw [RecordOpening.toV_commitment]
  rw [show spendOtherPk ro.toV .freezer = E.xy ro.pub_key.address from rfl, deriveNullifierKeyV_host, if_neg h]
  rfl

theorem spendRoot_host (ro : RecordOpening) (acc : AccMemberWitness) :
    spendRoot ro.toV acc.toV = merkleRoot (acc.uid.val : F) ro.commitment acc.path := by
  unfold spendRoot
  rw [RecordOpening.toV_commitment]
  rfl

theorem SpendOk_user_host (ro : RecordOpening) (k : UserKeyPair) :
    SpendOk ro.toV (frToFq k.sk) .user ↔ ro.pub_key.address = k.address := by
  unfold SpendOk
  rw [deriveUserAddressV_frToFq]
  constructor
  · rintro ⟨-, h⟩
    exact (xy_inj h).symm
  · intro h
    exact ⟨frToFq_ok _, by rw [show spendPk ro.toV .user = E.xy ro.pub_key.address from rfl, h]; rfl⟩

theorem SpendOk_freezer_host (ro : RecordOpening) (s : Fr) :
    SpendOk ro.toV (frToFq s) .freezer ↔ ro.asset_def.policy.freezer_pk = smulFr s E.gen := by
  unfold SpendOk
  rw [deriveUserAddressV_frToFq]
  constructor
  · rintro ⟨-, h⟩
    exact (xy_inj h).symm
  · intro h
    exact ⟨frToFq_ok _, by rw [show spendPk ro.toV .freezer = E.xy ro.asset_def.policy.freezer_pk from rfl, h]⟩

theorem toScalar_default : RevealMap.toScalar (RevealMap.default) = (0 : F) := by
  unfold RevealMap.toScalar
  have : RevealMap.toNat RevealMap.default = 0 := by decide
  rw [this]; simp

theorem Amount.toF_zero : Amount.toF 0 = (0 : F) := by
  unfold Amount.toF; simp

theorem AssetPolicy.toV_inj {a b : AssetPolicy} (h : a.toV = b.toV) : a = b := by
  obtain ⟨a1, a2, a3, a4, a5⟩ := a
  obtain ⟨b1, b2, b3, b4, b5⟩ := b
  simp only [AssetPolicy.toV, PolicyV.mk.injEq] at h
  obtain ⟨h1, h2, h3, h4, h5⟩ := h
  rw [xy_inj h1, xy_inj h2, xy_inj h3, RevealMap.toScalar_inj h4, Amount.toF_inj h5]

theorem PolicyV.enforceEqual_iff {p q : PolicyV} : p.EnforceEqual q ↔ p = q := by
  obtain ⟨a, b, c, d, e⟩ := p
  obtain ⟨a', b', c', d', e'⟩ := q
  simp only [PolicyV.EnforceEqual, PolicyV.mk.injEq]
  tauto

theorem PolicyV.checkEqual_iff {p q : PolicyV} : p.checkEqual q = true ↔ p = q := by
  obtain ⟨a, b, c, d, e⟩ := p
  obtain ⟨a', b', c', d', e'⟩ := q
  simp only [PolicyV.checkEqual, Bool.and_eq_true, decide_eq_true_eq, PolicyV.mk.injEq]
  tauto

/-- the dummy policy as circuit values -/
theorem default_toV : AssetPolicy.default.toV = ⟨neutral, neutral, neutral, 0, 0⟩ := by
  unfold AssetPolicy.toV AssetPolicy.default
  simp only [toScalar_default, Amount.toF_zero, E.xy_zero]
  rfl

theorem PolicyV.enforceDummy_iff {p : PolicyV} : p.EnforceDummy ↔ p = AssetPolicy.default.toV := by
  rw [default_toV]
  obtain ⟨a, b, c, d, e⟩ := p
  simp only [PolicyV.EnforceDummy, PolicyV.mk.injEq]

theorem AssetPolicy.enforceDummy_host {p : AssetPolicy} : p.toV.EnforceDummy ↔ p = AssetPolicy.default := by
  rw [PolicyV.enforceDummy_iff]
  exact ⟨AssetPolicy.toV_inj, fun h => h ▸ rfl⟩

theorem AssetPolicy.enforceEqual_host {p q : AssetPolicy} : p.toV.EnforceEqual q.toV ↔ p = q := by
  rw [PolicyV.enforceEqual_iff]
  exact ⟨AssetPolicy.toV_inj, fun h => h ▸ rfl⟩

theorem AssetPolicy.checkEqual_host {p q : AssetPolicy} : p.toV.checkEqual q.toV = true ↔ p = q := by
  rw [PolicyV.checkEqual_iff]
  exact ⟨AssetPolicy.toV_inj, fun h => h ▸ rfl⟩

theorem isDummyCredPk_host (p : AssetPolicy) : p.toV.isDummyCredPk = true ↔ p.cred_pk = 0 := by
  simp only [PolicyV.isDummyCredPk, AssetPolicy.toV, decide_eq_true_eq, xy_eq_neutral]

theorem isDummyViewingPk_host (p : AssetPolicy) : p.toV.isDummyViewingPk = true ↔ p.viewer_pk = 0 := by
  simp only [PolicyV.isDummyViewingPk, AssetPolicy.toV, decide_eq_true_eq, xy_eq_neutral]

theorem isDummyFreezerPk_host (p : AssetPolicy) : p.toV.isDummyFreezerPk = true ↔ p.freezer_pk = 0 := by
  simp only [PolicyV.isDummyFreezerPk, AssetPolicy.toV, decide_eq_true_eq, xy_eq_neutral]

/-- on host policies the sum test of `is_dummy_policy` is exact -/
theorem isDummyPolicy_host (p : AssetPolicy) : p.toV.isDummyPolicy = true ↔ p = AssetPolicy.default := by
  unfold PolicyV.isDummyPolicy
  simp only [Bool.and_eq_true, isDummyViewingPk_host, isDummyCredPk_host, isDummyFreezerPk_host,
    decide_eq_true_eq]
  obtain ⟨v, c, f, m, t⟩ := p
  simp only [AssetPolicy.toV, AssetPolicy.default, AssetPolicy.mk.injEq]
  constructor
  · rintro ⟨⟨⟨h1, h2⟩, h3⟩, h4⟩
    have hm := RevealMap.toNat_lt m
    have ht := t.isLt
    have hs : ((m.toNat + t.val : ℕ) : F) = ((0 : ℕ) : F) := by
      push_cast
      simpa [RevealMap.toScalar, Amount.toF] using h4
    have h0 := natF_inj (by have : (2:ℕ) ^ 12 + 2 ^ 128 < 2 ^ 252 := by norm_num
                            omega) (by norm_num) hs
    have hm0 : m.toNat = 0 := by omega
    have ht0 : t.val = 0 := by omega
    refine ⟨h1, h2, h3, ?_, Fin.ext ht0⟩
    apply RevealMap.toNat_inj
    rw [hm0]; decide
  · rintro ⟨rfl, rfl, rfl, rfl, rfl⟩
    refine ⟨⟨⟨rfl, rfl⟩, rfl⟩, ?_⟩
    rw [toScalar_default, Amount.toF_zero, add_zero]

theorem RecordOpening.toV_isDummy (ro : RecordOpening) : ro.toV.isDummy = true ↔ ro.asset_def.code = dummyCode := by
  unfold RecordV.isDummy
  exact decide_eq_true_iff

theorem RecordOpening.isDummy_iff (ro : RecordOpening) :
    ro.isDummy = true ↔ ro.asset_def = AssetDefinition.dummy := by
  simp only [RecordOpening.isDummy, AssetDefinition.isDummy, decide_eq_true_eq]

omit E in
theorem FreezeFlag.toBool_eq_false {f : FreezeFlag} : f.toBool = false ↔ f = .unfrozen := by
  cases f <;> simp [FreezeFlag.toBool]

omit E in
theorem FreezeFlag.toBool_eq_true {f : FreezeFlag} : f.toBool = true ↔ f = .frozen := by
  cases f <;> simp [FreezeFlag.toBool]

theorem merkleCheck_iff {a : AccMemberWitness} {c : F} :
    merkleCheck a c = true ↔ merkleRoot (a.uid.val : F) c a.path = a.root := by
  simp only [merkleCheck, decide_eq_true_eq]

theorem AssetDefinition.isNative_iff {d : AssetDefinition} : d.isNative = true ↔ d = AssetDefinition.native := by
  simp only [AssetDefinition.isNative, decide_eq_true_eq]

theorem AssetDefinition.isDummy_iff {d : AssetDefinition} : d.isDummy = true ↔ d = AssetDefinition.dummy := by
  simp only [AssetDefinition.isDummy, decide_eq_true_eq]

end Cap
