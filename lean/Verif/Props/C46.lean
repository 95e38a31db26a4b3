/-
C46: dummy records carry no value and grant no rights.

status: partial
note: Amount zero and "the fee input is never a dummy" hold of every satisfying assignment. "Default policy" is FALSE of assignments: is_dummy_policy adds map and threshold in the field and tests the sum, and neither is range-checked at a dummy position. C46_policy_false: for every instantiation an accepted note spends a dummy with map 1 and threshold -1. C46_partial: keys neutral and map + threshold = 0. For records the library can hold the claim is proved in full: C46_records (a record opening with the committed values of a dummy input is the dummy asset definition with its default policy, amount 0, unfrozen), C46_accepted end to end; C46_policies and C46_agree: library and circuit agree on dummies and dummy policies for every policy and every asset definition the API can build.
-/
import Verif.Lemmas.Forge
import Verif.Lemmas.Opened
import Verif.Props.C05

namespace Cap

open Spec

variable [E : CapEnv] [S : CapExt]

/-- **Assignments.**  A dummy input has amount 0, neutral keys, and map and threshold that add up to 0. -/
theorem C46_partial {a b d : ℕ} {n : TransferNote} {w : TransferWit} (h : OpensTransfer a b d n w)
    {i : InputV} (hi : i ∈ w.inputs) (hd : i.ro.asset_code = dummyCode) :
    i.ro.amount = 0 ∧ i.ro.policy.viewer_pk = neutral ∧ i.ro.policy.cred_pk = neutral ∧
      i.ro.policy.freezer_pk = neutral ∧ i.ro.policy.reveal_map + i.ro.policy.reveal_threshold = 0 ∧
      i.ro.policy.isDummyPolicy = true := by
  obtain ⟨i0, is, o0, os, nl, nls, c, cs, P⟩ := h.sat.parts h.shape
  have hdd : i.ro.isDummy = true := by simp [RecordV.isDummy, hd]
  rw [P.inputs, List.mem_cons] at hi
  rcases hi with rfl | hi
  · have := P.in0.2.2.1
    simp only [InputPosOk, if_true] at this
    exact absurd (this.1.symm.trans hd) native_ne_dummy
  · obtain ⟨x, -, -, h1, h2, -⟩ := P.mem_in hi
    simp only [InputPosOk, Bool.false_eq_true, if_false, hdd] at h2
    have h3 : i.ro.policy.isDummyPolicy = true := by simpa using h2.1
    have h4 := h3
    simp only [PolicyV.isDummyPolicy, Bool.and_eq_true, decide_eq_true_eq, PolicyV.isDummyViewingPk,
      PolicyV.isDummyCredPk, PolicyV.isDummyFreezerPk] at h4
    exact ⟨h1.resolve_left (by simp [hdd]), h4.1.1.1, h4.1.1.2, h4.1.2, h4.2, h3⟩

/-- **The fee input** is a native record, never a dummy. -/
theorem C46_fee {a b d : ℕ} {n : TransferNote} {w : TransferWit} (h : OpensTransfer a b d n w) :
    ∃ i0 is, w.inputs = i0 :: is ∧ i0.ro.asset_code = nativeCode ∧ i0.ro.asset_code ≠ dummyCode := by
  obtain ⟨i0, is, o0, os, nl, nls, c, cs, P⟩ := h.sat.parts h.shape
  have := P.in0.2.2.1
  simp only [InputPosOk, if_true] at this
  have hc : i0.ro.asset_code = nativeCode := this.1
  exact ⟨i0, is, P.inputs, hc, by rw [hc]; exact native_ne_dummy⟩

omit S in
/-- What the library reads at a dummy position: twice the map, the flag and twice the threshold add up to 0. -/
theorem reads_dummy {ro : RecordOpening} {v : RecordV} (h : Reads ro v) (hc : v.asset_code = dummyCode)
    (hf : v.freeze_flag = false) (hd : v.policy.isDummyPolicy = true) :
    ro.asset_def = AssetDefinition.dummy ∧ ro.freeze_flag = .unfrozen := by
  obtain ⟨-, h2, -, h4, h5, h6, h7, h8, -⟩ := reads_iff.1 h
  have hu := reads_dummy_unfrozen h hf hd
  refine ⟨?_, hu⟩
  simp only [PolicyV.isDummyPolicy, Bool.and_eq_true, decide_eq_true_eq, PolicyV.isDummyViewingPk,
    PolicyV.isDummyCredPk, PolicyV.isDummyFreezerPk] at hd
  obtain ⟨⟨⟨k1, k2⟩, k3⟩, hs⟩ := hd
  rw [k1, xy_eq_neutral] at h4
  rw [k2, xy_eq_neutral] at h5
  rw [k3, xy_eq_neutral] at h6
  rw [← h8] at hs
  have e : ((2 * ro.asset_def.policy.reveal_map.toNat + 2 * ro.asset_def.policy.reveal_threshold.val : ℕ) : F) =
      ((0 : ℕ) : F) := by
    push_cast
    rw [hf, hu] at h7
    have : v.policy.reveal_map = -Amount.toF ro.asset_def.policy.reveal_threshold := eq_neg_of_add_eq_zero_left hs
    rw [this] at h7
    simp only [RevealMap.toScalar, Amount.toF, boolF, FreezeFlag.toNat, Bool.false_eq_true, if_false, Nat.cast_zero,
      add_zero] at h7
    rw [h7]
    ring
  have hm := RevealMap.toNat_lt ro.asset_def.policy.reveal_map
  have ht := ro.asset_def.policy.reveal_threshold.isLt
  have h0 := natF_inj (by have : (2:ℕ) * 2 ^ 12 + 2 * 2 ^ 128 < 2 ^ 252 := by norm_num
                          omega) (by norm_num) e
  have e1 : ro.asset_def.policy.reveal_map = RevealMap.default := by
    apply RevealMap.toNat_inj
    have : RevealMap.toNat RevealMap.default = 0 := by decide
    omega
  have e2 : ro.asset_def.policy.reveal_threshold = 0 := Fin.ext (by simp; omega)
  rcases ha : ro.asset_def with ⟨code, ⟨v1, c1, f1, m1, t1⟩⟩
  rw [ha] at h2 h4 h5 h6 e1 e2
  simp only at h2 h4 h5 h6 e1 e2
  rw [h2, hc, h4, h5, h6, e1, e2]
  rfl

/-- **Records.**  A record opening with the committed values of a dummy input is a dummy of amount 0 with the default
policy. -/
theorem C46_records {a b d : ℕ} {n : TransferNote} {w : TransferWit} (h : OpensTransfer a b d n w)
    {i : InputV} (hi : i ∈ w.inputs) (hd : i.ro.asset_code = dummyCode) {ro : RecordOpening} (hr : Reads ro i.ro) :
    ro.amount = 0 ∧ ro.asset_def = AssetDefinition.dummy ∧ ro.asset_def.policy = AssetPolicy.default ∧
      ro.freeze_flag = .unfrozen ∧ ro.isDummy = true := by
  obtain ⟨h1, -, -, -, -, h6⟩ := C46_partial h hi hd
  obtain ⟨e1, e2⟩ := reads_dummy hr hd ((C05_transfer h).1 i hi) h6
  refine ⟨?_, e1, by rw [e1]; rfl, e2, (RecordOpening.isDummy_iff ro).2 e1⟩
  have := reads_amount hr
  rw [h1] at this
  exact Fin.ext (by simpa using this.symm)

/-- **End to end.**  In an accepted transfer the fee input is not a dummy, dummy inputs have amount 0, and a record
opening with the dummy code and the commitment of a spent input is the default dummy of amount 0, or the commitment
function collides on the two openings. -/
theorem C46_accepted (sound : SnarkSound) {a b : ℕ} {d : Fin 256} {pk : TransferProvingKey}
    {vk : TransferVerifyingKey} (keys : transferPreprocess a b d = .ok (pk, vk)) {n : TransferNote} {root : F}
    {t : U64} (ok : n.verify vk root t = .ok ()) (hn : n.inputs_nullifiers.length = a)
    (hc : n.output_commitments.length = b) :
    ∃ w i0 is, OpensTransfer a b d.val n w ∧ w.inputs = i0 :: is ∧ i0.ro.asset_code ≠ dummyCode ∧
      (∀ i ∈ is, i.ro.asset_code = dummyCode → i.ro.amount = 0) ∧
      ∀ i ∈ w.inputs, ∀ ro : RecordOpening, ro.commitment = i.ro.commitment → ro.asset_def.code = dummyCode →
        (ro.amount = 0 ∧ ro.asset_def = AssetDefinition.dummy ∧ ro.freeze_flag = .unfrozen) ∨
          Collides commitOf (ro.scalars, ro.blind) (i.ro.scalars, i.ro.blind) := by
  obtain ⟨w, h⟩ := transfer_opened sound keys ok hn hc
  obtain ⟨i0, is, h1, h2, h3⟩ := C46_fee h
  refine ⟨w, i0, is, h, h1, h3, fun i hi hd => (C46_partial h (by rw [h1]; exact List.mem_cons_of_mem _ hi) hd).1, ?_⟩
  intro i hi ro he hd
  rcases reads_or_collides he with hr | hcol
  · have hd' : i.ro.asset_code = dummyCode := (reads_iff.1 hr).2.1.symm.trans hd
    obtain ⟨e1, e2, -, e4, -⟩ := C46_records h hi hd' hr
    exact Or.inl ⟨e1, e2, e4⟩
  · exact Or.inr hcol

omit S in
/-- a record with the dummy code, amount 0, map 1 and threshold -1, owned by the generator (secret key 1) -/
def skewDummy : RecordV := ⟨0, dummyCode, E.xy E.gen, ⟨neutral, neutral, neutral, 1, -1⟩, false, 0⟩

/-- **Negation of "default policy" for assignments.**  For every instantiation and depth an accepted note spends a dummy
whose policy has map 1 and threshold -1. -/
theorem C46_policy_false (complete : SnarkComplete) {d : Fin 256}
    {pk : TransferProvingKey} {vk : TransferVerifyingKey} (keys : transferPreprocess 2 2 d = .ok (pk, vk)) :
    ∃ n w, OpensTransfer 2 2 d.val n w ∧ (∀ t, n.verify vk n.aux_info.merkle_root t = .ok ()) ∧
      ∃ i ∈ w.inputs, i.ro.asset_code = dummyCode ∧ i.ro.policy ≠ AssetPolicy.default.toV ∧
        i.ro.policy.reveal_map = 1 := by
  let f : Forgery :=
    { r0 := nativeOf 0, r1 := skewDummy, sk0 := frToFq 1, sk1 := frToFq 1, acc0 := ⟨0, edge d.val⟩,
      acc1 := ⟨0, edge d.val⟩, cred1 := selfCred ((Fin.last (2 ^ 64 - 1)).val : F), o0 := nativeOf 0, o1 := nativeOf 0,
      code := nativeCode, policy := AssetPolicy.default.toV, root := spendRoot (nativeOf 0) ⟨0, edge d.val⟩, fee := 0,
      valid_until := Fin.last _ }
  have hskew : skewDummy.policy.isDummyPolicy = true := by
    simp [skewDummy, PolicyV.isDummyPolicy, PolicyV.isDummyViewingPk, PolicyV.isDummyCredPk, PolicyV.isDummyFreezerPk]
  have hok : f.Ok d.val :=
    { r0_unfrozen := rfl, r0_code := rfl, r0_policy := rfl, r0_spend := nativeOf_spend _, r0_root := rfl,
      r1_unfrozen := rfl, r1_kind := Or.inr ⟨rfl, rfl, hskew⟩,
      r1_spend := ⟨one_ok, by rw [deriveUserAddressV_frToFq, smulFr_one]; rfl⟩,
      path0 := Forgery.edge_length _, path1 := Forgery.edge_length _,
      attrs := (Forgery.selfCred_ok _).1, expiry := (Forgery.selfCred_ok _).2,
      sig := Or.inr (selfCred_valid _), o0_unfrozen := rfl, o0_code := rfl, o0_policy := rfl,
      o0_range := by simp [f, nativeOf], o1_unfrozen := rfl, o1_code := rfl, o1_policy := rfl,
      o1_range := by simp [f, nativeOf], no_viewer := Or.inl ((isDummyViewingPk_host _).2 rfl), map := default_map_small,
      balance := by simp [f, nativeOf, skewDummy, Amount.toF] }
  obtain ⟨π, ho, hv⟩ := Forgery.accepted complete keys f hok
  refine ⟨_, _, ho, fun t => hv t (Fin.le_last t), ⟨f.sk1, skewDummy, f.acc1, f.cred1⟩, ?_, rfl, ?_, rfl⟩
  · exact List.mem_cons_of_mem _ (List.mem_cons_self ..)
  · intro h
    have : (1 : F) = 0 := by
      have := congrArg PolicyV.reveal_map h
      rw [default_toV] at this
      exact this
    have h10 := natF_inj (a := 1) (b := 0) (by norm_num) (by norm_num) (by simpa using this)
    omega

omit S in
/-- **Policies.**  On every policy the library can hold, the circuit's dummy test is exact. -/
theorem C46_policies (p : AssetPolicy) :
    (p.toV.isDummyPolicy = true ↔ p = AssetPolicy.default) ∧ (p.toV.EnforceDummy ↔ p = AssetPolicy.default) :=
  ⟨isDummyPolicy_host p, AssetPolicy.enforceDummy_host⟩

omit S in
/-- the asset definitions the API can build: `new`, `native`, `dummy` -/
inductive ApiAsset : AssetDefinition → Prop
  | new {code : AssetCode} {policy : AssetPolicy} {ad : AssetDefinition} (h : AssetDefinition.new code policy = .ok ad) :
      ApiAsset ad
  | native : ApiAsset AssetDefinition.native
  | dummy : ApiAsset AssetDefinition.dummy

omit S in
/-- **Dummies.**  Library (asset definition) and circuit (asset code) agree on which records are dummies, for every
asset definition the API can build; in general the library's dummies are the circuit's dummies with the default
policy. -/
theorem C46_agree (ro : RecordOpening) :
    (ApiAsset ro.asset_def → (ro.isDummy = true ↔ ro.toV.isDummy = true)) ∧
      (ro.isDummy = true ↔ ro.toV.isDummy = true ∧ ro.asset_def.policy = AssetPolicy.default) := by
  rw [RecordOpening.isDummy_iff, RecordOpening.toV_isDummy]
  constructor
  · intro h
    constructor
    · intro he
      rw [he]; rfl
    · intro hc
      rcases ha : ro.asset_def with ⟨code, policy⟩
      rw [ha] at h hc
      cases h with
      | new h =>
        unfold AssetDefinition.new at h
        split at h
        · cases h
        · rename_i hne
          cases h
          exact absurd (Or.inr hc) hne
      | native => exact absurd hc native_ne_dummy
      | dummy => rfl
  · rcases ro.asset_def with ⟨code, policy⟩
    simp [AssetDefinition.dummy]

omit S in
/-- The difference between the two tests: a record with the dummy code and another policy is a dummy for the circuit
only.  The API cannot build its asset definition. -/
theorem C46_other_policy {ro : RecordOpening} (hc : ro.asset_def.code = dummyCode)
    (hp : ro.asset_def.policy ≠ AssetPolicy.default) :
    ro.toV.isDummy = true ∧ ro.isDummy = false ∧ ¬ ApiAsset ro.asset_def := by
  have h1 : ro.toV.isDummy = true := (RecordOpening.toV_isDummy ro).2 hc
  have h2 : ro.isDummy = false := by
    have := (C46_agree ro).2
    cases hd : ro.isDummy with
    | false => rfl
    | true => exact absurd (this.1 hd).2 hp
  refine ⟨h1, h2, fun h => ?_⟩
  have := ((C46_agree ro).1 h).2 h1
  rw [h2] at this
  cases this

end Cap

namespace Cap.Examples
open Toy Spec

/-- the example transfer spends a dummy, and its Merkle witness is not one of the ledger -/
example : ∃ w, OpensTransfer 3 3 1 xfrNote w ∧ ∃ i ∈ w.inputs, i.ro.asset_code = dummyCode ∧ Reads dummyRec i.ro := by
  obtain ⟨w, h, hi, -⟩ := xfr_opens
  have hm : dummyRec.toV ∈ w.toV.inputs.map (·.ro) := by rw [hi]; simp
  obtain ⟨i, h1, h2⟩ := List.mem_map.1 hm
  exact ⟨w.toV, h, i, h1, by rw [h2]; decide +kernel, h2 ▸ Reads.toV _⟩
example : ∃ w i0 is, OpensTransfer 3 3 1 xfrNote w ∧ w.inputs = i0 :: is ∧ i0.ro.asset_code ≠ dummyCode := by
  obtain ⟨w, i0, is, h1, h2, h3, -⟩ := C46_accepted Toy.sound xfrKeys_eq (xfrNote_verify 0 (by decide)) rfl rfl
  exact ⟨w, i0, is, h1, h2, h3⟩
/-- the negation in the toy instantiation -/
example : ∃ (vk : TransferVerifyingKey) (n : TransferNote), ∀ t, n.verify vk n.aux_info.merkle_root t = .ok () := by
  obtain ⟨pk, vk, keys⟩ : ∃ pk vk, transferPreprocess 2 2 1 = .ok (pk, vk) := ⟨_, _, rfl⟩
  obtain ⟨n, w, -, h, -⟩ := C46_policy_false Toy.complete keys
  exact ⟨vk, n, h⟩
/-- API assets of the three kinds -/
example : ApiAsset asset ∧ ApiAsset dummyRec.asset_def ∧ ApiAsset feeRec.asset_def := by
  refine ⟨.new (code := asset.code) (policy := asset.policy) (by decide +kernel), ?_, ?_⟩
  · exact (by decide +kernel : dummyRec.asset_def = AssetDefinition.dummy) ▸ .dummy
  · exact (by decide +kernel : feeRec.asset_def = AssetDefinition.native) ▸ .native

end Cap.Examples
