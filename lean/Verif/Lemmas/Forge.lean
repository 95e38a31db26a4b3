/-
Assignments that an adversary can choose: a transfer of two inputs and two outputs whose records need not be
honest.  Used to show that a property fails.
-/
import Verif.Lemmas.FieldSum

namespace Cap

open Spec

variable [E : CapEnv]

/-- the upper part of a Merkle path on the left edge of the tree -/
def edge (d : ℕ) : List PathNode := List.replicate d ⟨0, 0, .left⟩

/-- Merkle witness of the leaf with index 0 next to a leaf with index 1 -/
def accLeft (c1 : F) (d : ℕ) : AccV := ⟨0, ⟨E.leafHash 1 c1, 0, .left⟩ :: edge d⟩
/-- Merkle witness of the leaf with index 1 next to a leaf with index 0 -/
def accRight (c0 : F) (d : ℕ) : AccV := ⟨1, ⟨E.leafHash 0 c0, 0, .middle⟩ :: edge d⟩

/-- the common root -/
def pairRoot (c0 c1 : F) (d : ℕ) : F :=
  (edge d).foldl PathNode.step (E.nodeHash (E.leafHash 0 c0) (E.leafHash 1 c1) 0)

theorem accLeft_root (v : RecordV) (c1 : F) (d : ℕ) : spendRoot v (accLeft c1 d) = pairRoot v.commitment c1 d := rfl

theorem accRight_root (v : RecordV) (c0 : F) (d : ℕ) : spendRoot v (accRight c0 d) = pairRoot c0 v.commitment d := rfl

/-- a credential for nobody (the neutral address) that everybody can sign, with the secret key 0 -/
def selfCred (expiry : F) : CredV :=
  ⟨List.replicate ATTRS_LEN 0, expiry, E.schnorrSign 0 ([expiry, neutral.1, neutral.2] ++ List.replicate ATTRS_LEN 0),
    neutral, neutral⟩

theorem selfCred_valid (expiry : F) : (selfCred expiry).sigValid = true := by
  have h := E.schnorr_correct 0 ([expiry, neutral.1, neutral.2] ++ List.replicate ATTRS_LEN 0)
  rw [ZMod.val_zero, zero_nsmul, E.xy_zero] at h
  exact h

/-- a native record owned by the generator (secret key 1) -/
def nativeOf (amount : F) : RecordV := ⟨amount, nativeCode, E.xy E.gen, AssetPolicy.default.toV, false, 0⟩

theorem one_ok : okScalar (frToFq (1 : Fr)) := frToFq_ok 1

theorem smulFr_one (P : Pt) : smulFr 1 P = P := by
  have := smulFr_natCast 1 P
  simpa using this

theorem nativeOf_spend (x : F) : SpendOk (nativeOf x) (frToFq 1) .user := by
  refine ⟨one_ok, ?_⟩
  rw [deriveUserAddressV_frToFq, smulFr_one]
  rfl

/-- The two spent records with their secrets and Merkle witnesses, and the two created ones. -/
structure Forgery where
  r0 : RecordV
  r1 : RecordV
  sk0 : F
  sk1 : F
  acc0 : AccV
  acc1 : AccV
  cred1 : CredV
  o0 : RecordV
  o1 : RecordV
  code : F
  policy : PolicyV
  root : F
  fee : Amount
  valid_until : U64

namespace Forgery

/-- the assignment -/
def wit (f : Forgery) : TransferWit :=
  ⟨f.code, f.policy, [⟨f.sk0, f.r0, f.acc0, selfCred (f.valid_until.val : F)⟩, ⟨f.sk1, f.r1, f.acc1, f.cred1⟩],
    [f.o0, f.o1], 0⟩

/-- the statement: a memo that says nothing -/
def pub (f : Forgery) : TransferPublicInput :=
  { merkle_root := f.root, native_asset_code := nativeCode, valid_until := f.valid_until, fee := f.fee,
    input_nullifiers := [spendNullifier f.r0 f.acc0 f.sk0 .user, spendNullifier f.r1 f.acc1 f.sk1 .user],
    output_commitments := [f.o0.commitment, f.o1.commitment], viewing_memo := ⟨0, List.replicate 17 0⟩ }

variable [S : CapExt]

/-- the note, with some proof, memo key 0 and a memo that says nothing -/
def note (f : Forgery) (π : S.Proof) : TransferNote :=
  ⟨[spendNullifier f.r0 f.acc0 f.sk0 .user, spendNullifier f.r1 f.acc1 f.sk1 .user],
    [f.o0.commitment, f.o1.commitment], π, ⟨0, List.replicate 17 0⟩, ⟨f.root, f.fee, f.valid_until, 0, []⟩⟩

omit S in
/-- what the forger has to respect -/
structure Ok (f : Forgery) (d : ℕ) : Prop where
  r0_unfrozen : f.r0.freeze_flag = false
  r0_code : f.r0.asset_code = nativeCode
  r0_policy : f.r0.policy = AssetPolicy.default.toV
  r0_spend : SpendOk f.r0 f.sk0 .user
  r0_root : spendRoot f.r0 f.acc0 = f.root
  r1_unfrozen : f.r1.freeze_flag = false
  r1_kind : (f.r1.asset_code ≠ dummyCode ∧ f.r1.policy = f.policy ∧ spendRoot f.r1 f.acc1 = f.root) ∨
    (f.r1.asset_code = dummyCode ∧ f.r1.amount = 0 ∧ f.r1.policy.isDummyPolicy = true)
  r1_spend : SpendOk f.r1 f.sk1 .user
  path0 : f.acc0.path.length = d
  path1 : f.acc1.path.length = d
  attrs : f.cred1.attrs.length = ATTRS_LEN
  expiry : f.cred1.EnforceNotExpired (f.valid_until.val : F)
  sig : f.r1.policy.isDummyCredPk = true ∨ f.cred1.sigValid = true
  o0_unfrozen : f.o0.freeze_flag = false
  o0_code : f.o0.asset_code = nativeCode
  o0_policy : f.o0.policy = AssetPolicy.default.toV
  o0_range : f.o0.amount.val < 2 ^ 127
  o1_unfrozen : f.o1.freeze_flag = false
  o1_code : f.o1.asset_code = f.code
  o1_policy : f.o1.policy = f.policy
  o1_range : f.o1.amount.val < 2 ^ 127
  no_viewer : f.policy.isDummyViewingPk = true ∨ underLimit f.wit = true
  map : f.policy.reveal_map.val < 2 ^ 12
  balance : (nativeCode ≠ f.code → f.r0.amount = f.o0.amount + Amount.toF f.fee ∧ f.r1.amount = f.o1.amount) ∧
    (nativeCode = f.code → f.r0.amount + f.r1.amount = f.o0.amount + f.o1.amount + Amount.toF f.fee)

omit S in
theorem selfCred_ok (v : F) : (selfCred v).attrs.length = ATTRS_LEN ∧ (selfCred v).EnforceNotExpired v := by
  constructor
  · simp [selfCred]
  · simp [selfCred, CredV.EnforceNotExpired, InRange]

omit S in
theorem zero_ok : okScalar (0 : F) := by simp [okScalar]

omit S in
theorem satisfies (f : Forgery) (d : ℕ) (h : f.Ok d) :
    TransferShape 2 2 d f.wit f.pub.toV ∧ TransferSat f.wit f.pub.toV := by
  have hd : (nativeCode : F) ≠ dummyCode := native_ne_dummy
  have hlen : (transferMsgV f.wit).length = 17 := by
    simp [transferMsgV, wit, inputMsgV, outputMsgV, hadamardV, h.attrs, ATTRS_LEN, ASSET_TRACING_MAP_LEN]
  refine ⟨⟨rfl, rfl, rfl, rfl, ?_, ?_⟩, ⟨?_, ?_, ?_, h.map, zero_ok, ?_, Or.inl h.no_viewer.symm⟩⟩
  · intro i hi
    simp only [wit, List.mem_cons, List.not_mem_nil, or_false] at hi
    rcases hi with rfl | rfl
    · exact h.path0
    · exact h.path1
  · simp [pub, TransferPublicInput.toV, ViewableMemo.toV, VIEWABLE_DATA_LEN, REVEAL_MAP_LEN,
      ATTRS_LEN]
  · refine ⟨⟨h.r0_unfrozen, Or.inl ?_, ?_, h.r0_spend, rfl, Or.inr h.r0_root, (selfCred_ok _).1, (selfCred_ok _).2,
      Or.inl ?_⟩, ⟨h.r1_unfrozen, ?_, ?_, h.r1_spend, rfl, ?_, h.attrs, h.expiry, h.sig⟩, ?_⟩
    · simp [RecordV.isDummy, h.r0_code, hd]
    · simp only [InputPosOk, if_true]
      exact ⟨h.r0_code, PolicyV.enforceDummy_iff.2 h.r0_policy⟩
    · rw [h.r0_policy, isDummyCredPk_host]; rfl
    · rcases h.r1_kind with ⟨h1, -⟩ | ⟨-, h2, -⟩
      · exact Or.inl (by simp [RecordV.isDummy, h1])
      · exact Or.inr h2
    · simp only [InputPosOk, Bool.false_eq_true, if_false]
      rcases h.r1_kind with ⟨h1, h2, -⟩ | ⟨h1, -, h2⟩
      · exact ⟨Or.inl (by simp [RecordV.isDummy, h1]), Or.inr (PolicyV.checkEqual_iff.2 h2)⟩
      · exact ⟨Or.inr h2, Or.inl (by simp [RecordV.isDummy, h1])⟩
    · rcases h.r1_kind with ⟨-, -, h1⟩ | ⟨h1, -⟩
      · exact Or.inr h1
      · exact Or.inl (by simp [RecordV.isDummy, h1])
    · trivial
  · refine ⟨⟨h.o0_unfrozen, ?_, rfl, h.o0_range⟩, ⟨h.o1_unfrozen, ?_, rfl, h.o1_range⟩, trivial⟩
    · simp only [if_true]
      exact ⟨h.o0_code, PolicyV.enforceDummy_iff.2 h.o0_policy⟩
    · simp only [Bool.false_eq_true, if_false]
      exact ⟨h.o1_code, PolicyV.enforceEqual_iff.2 h.o1_policy⟩
  · refine preserveBalance_iff.2 ?_
    simp only [wit, sumTail, List.map_cons, List.map_nil, List.tail_cons, List.sum_cons, List.sum_nil, add_zero]
    exact h.balance
  · rw [hlen]
    simp [pub, TransferPublicInput.toV, ViewableMemo.toV]

omit S in
/-- Two records side by side in a tree, spent to make two others; the credential slot holds a credential everybody
can sign. -/
def pair (r0 r1 o0 o1 : RecordV) (sk0 sk1 : F) (d : ℕ) (fee : Amount) (valid_until : U64) : Forgery :=
  { r0, r1, sk0, sk1, acc0 := accLeft r1.commitment d, acc1 := accRight r0.commitment d,
    cred1 := selfCred (valid_until.val : F), o0, o1, code := o1.asset_code, policy := r1.policy,
    root := pairRoot r0.commitment r1.commitment d, fee, valid_until }

omit S in
theorem edge_length (d : ℕ) : (edge d).length = d := by simp [edge]

omit S in
theorem pair_ok {r0 r1 o0 o1 : RecordV} {sk0 sk1 : F} {d : ℕ} {fee : Amount} {valid_until : U64}
    (h0 : r0.freeze_flag = false ∧ r0.asset_code = nativeCode ∧ r0.policy = AssetPolicy.default.toV)
    (s0 : SpendOk r0 sk0 .user) (h1 : r1.freeze_flag = false ∧ r1.asset_code ≠ dummyCode)
    (s1 : SpendOk r1 sk1 .user) (hv : r1.policy.isDummyViewingPk = true)
    (hm : r1.policy.reveal_map.val < 2 ^ 12)
    (g0 : o0.freeze_flag = false ∧ o0.asset_code = nativeCode ∧ o0.policy = AssetPolicy.default.toV)
    (g1 : o1.freeze_flag = false ∧ o1.policy = r1.policy)
    (y0 : o0.amount.val < 2 ^ 127) (y1 : o1.amount.val < 2 ^ 127)
    (balance : (nativeCode ≠ o1.asset_code → r0.amount = o0.amount + Amount.toF fee ∧ r1.amount = o1.amount) ∧
      (nativeCode = o1.asset_code → r0.amount + r1.amount = o0.amount + o1.amount + Amount.toF fee)) :
    (pair r0 r1 o0 o1 sk0 sk1 d fee valid_until).Ok (d + 1) where
  r0_unfrozen := h0.1
  r0_code := h0.2.1
  r0_policy := h0.2.2
  r0_spend := s0
  r0_root := rfl
  r1_unfrozen := h1.1
  r1_kind := Or.inl ⟨h1.2, rfl, rfl⟩
  r1_spend := s1
  path0 := by simp [pair, accLeft, edge_length]
  path1 := by simp [pair, accRight, edge_length]
  attrs := (selfCred_ok _).1
  expiry := (selfCred_ok _).2
  sig := Or.inr (selfCred_valid _)
  o0_unfrozen := g0.1
  o0_code := g0.2.1
  o0_policy := g0.2.2
  o0_range := y0
  o1_unfrozen := g1.1
  o1_code := rfl
  o1_policy := g1.2
  o1_range := y1
  no_viewer := Or.inl hv
  map := hm
  balance := balance

/-- Under a complete proof system the forged note is accepted. -/
theorem accepted (complete : SnarkComplete) {d : Fin 256} {pk : TransferProvingKey} {vk : TransferVerifyingKey}
    (keys : transferPreprocess 2 2 d = .ok (pk, vk)) (f : Forgery) (h : f.Ok d.val) :
    ∃ π, OpensTransfer 2 2 d.val (f.note π) f.wit ∧
      ∀ t ≤ f.valid_until, (f.note π).verify vk f.root t = .ok () := by
  obtain ⟨-, -, k, hk⟩ := transferPreprocess_key keys
  obtain ⟨hs, hsat⟩ := f.satisfies d.val h
  obtain ⟨π, -, hv⟩ := complete _ _ _ hk (.transfer f.wit f.pub.toV) hs hsat (E.verKeyBytes (0 : Pt) ++ []) 0
  exact ⟨π, ⟨hs, hsat⟩, fun t ht => TransferNote.verify_ok.2 ⟨rfl, ht, hv⟩⟩

end Forgery

/-- Two host records, spent to make two others of which the second may have any asset code: whoever knows the keys can
make a note that is accepted. -/
theorem hosts_accepted [S : CapExt] (complete : SnarkComplete) {d : Fin 256} (hd : d.val ≠ 0)
    {pk : TransferProvingKey} {vk : TransferVerifyingKey} (keys : transferPreprocess 2 2 d = .ok (pk, vk))
    {fee_ro ro chg out : RecordOpening} {k0 k1 : UserKeyPair}
    (fee_asset : fee_ro.asset_def = AssetDefinition.native) (fee_unfrozen : fee_ro.freeze_flag = .unfrozen)
    (fee_owner : fee_ro.pub_key.address = k0.address) (ro_unfrozen : ro.freeze_flag = .unfrozen)
    (ro_owner : ro.pub_key.address = k1.address) (ro_code : ro.asset_def.code ≠ dummyCode)
    (ro_viewer : ro.asset_def.policy.viewer_pk = 0)
    (chg_asset : chg.asset_def = AssetDefinition.native) (chg_unfrozen : chg.freeze_flag = .unfrozen)
    (chg_amount : chg.amount = fee_ro.amount) (chg_small : chg.amount.val < 2 ^ 127)
    (out_policy : out.asset_def.policy = ro.asset_def.policy) (out_unfrozen : out.freeze_flag = .unfrozen)
    (out_amount : out.amount = ro.amount) (out_small : out.amount.val < 2 ^ 127) :
    ∃ n w, OpensTransfer 2 2 d.val n w ∧ (∀ t, n.verify vk n.aux_info.merkle_root t = .ok ()) ∧
      w.inputs.map (·.ro) = [fee_ro.toV, ro.toV] ∧ w.outputs = [chg.toV, out.toV] ∧ n.aux_info.fee = 0 ∧
      ∀ i ∈ w.inputs, i.cred.creator_pk = neutral ∧ i.cred.user_addr = neutral := by
  obtain ⟨e, he⟩ : ∃ e, d.val = e + 1 := ⟨d.val - 1, by omega⟩
  have native : ∀ r : RecordOpening, r.asset_def = AssetDefinition.native →
      r.toV.asset_code = nativeCode ∧ r.toV.policy = AssetPolicy.default.toV := by
    intro r hr
    simp only [RecordOpening.toV, hr]
    exact ⟨rfl, rfl⟩
  have hok : (Forgery.pair fee_ro.toV ro.toV chg.toV out.toV (frToFq k0.sk) (frToFq k1.sk) e 0
      (Fin.last _)).Ok d.val := by
    rw [he]
    refine Forgery.pair_ok ⟨FreezeFlag.toBool_eq_false.2 fee_unfrozen, native _ fee_asset⟩
      ((SpendOk_user_host _ _).2 fee_owner) ⟨FreezeFlag.toBool_eq_false.2 ro_unfrozen, ro_code⟩
      ((SpendOk_user_host _ _).2 ro_owner) ((isDummyViewingPk_host _).2 ro_viewer) ?_
      ⟨FreezeFlag.toBool_eq_false.2 chg_unfrozen, native _ chg_asset⟩
      ⟨FreezeFlag.toBool_eq_false.2 out_unfrozen, congrArg AssetPolicy.toV out_policy⟩
      ?_ ?_ ⟨fun _ => ⟨?_, ?_⟩, fun _ => ?_⟩
    · rw [RecordOpening.toV, AssetPolicy.toV, RevealMap.toScalar_val]; exact RevealMap.toNat_lt _
    · rw [RecordOpening.toV, Amount.toF_val]; exact chg_small
    · rw [RecordOpening.toV, Amount.toF_val]; exact out_small
    · simp only [RecordOpening.toV, Amount.toF_zero, add_zero, chg_amount]
    · simp only [RecordOpening.toV, out_amount]
    · simp only [RecordOpening.toV, Amount.toF_zero, add_zero, chg_amount, out_amount]
  obtain ⟨π, ho, hv⟩ := Forgery.accepted complete keys _ hok
  refine ⟨_, _, ho, fun t => hv t (Fin.le_last t), rfl, rfl, rfl, ?_⟩
  intro i hi
  simp only [Forgery.wit, Forgery.pair, List.mem_cons, List.not_mem_nil, or_false] at hi
  rcases hi with rfl | rfl <;> exact ⟨rfl, rfl⟩

end Cap
