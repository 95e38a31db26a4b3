/-
What the gates of the functions in `Model/Circuit/Build.lean` say about any assignment.
-/
import Verif.Lemmas.Prog
import Verif.Model.Circuit.Build

namespace Cap.Plonk

variable [E : CapEnv]

theorem one_ne_zero_F : (1 : F) ≠ 0 := by
  have : Fact (1 < E.p) := ⟨lt_trans (by norm_num) E.p_gt⟩
  exact one_ne_zero

theorem boolF_inj {a b : Bool} : boolF a = boolF b ↔ a = b := by
  cases a <;> cases b <;> simp [boolF, one_ne_zero_F, one_ne_zero_F.symm]

theorem boolF_eq_one {b : Bool} : boolF b = 1 ↔ b = true := by cases b <;> simp [boolF, one_ne_zero_F.symm]
theorem boolF_eq_zero {b : Bool} : boolF b = 0 ↔ b = false := by cases b <;> simp [boolF, one_ne_zero_F]
theorem boolF_not (b : Bool) : 1 - boolF b = boolF (!b) := by cases b <;> simp [boolF]
theorem boolF_or_eq (a b : Bool) : boolF a + boolF b - boolF a * boolF b = boolF (a || b) := by
  cases a <;> cases b <;> simp [boolF]
theorem boolF_and_eq (a b : Bool) : boolF a * boolF b = boolF (a && b) := by
  cases a <;> cases b <;> simp [boolF]
theorem boolF_exists {v : F} (h : v = 0 ∨ v = 1) : ∃ b, v = boolF b := by
  rcases h with rfl | rfl
  · exact ⟨false, by simp [boolF]⟩
  · exact ⟨true, by simp [boolF]⟩

/-! ### What variables read -/

/-- the constants -/
structure Consts (a : Asg) : Prop where
  zero : a.f 0 = 0
  one : a.f 1 = 1

def RB (a : Asg) (b : BVar) (x : Bool) : Prop := a.f b.v = boolF x
def RP (a : Asg) (P : PVar) (c : PtV) : Prop := (a.f P.x, a.f P.y) = c

theorem RP.x {a : Asg} {P : PVar} {c : PtV} (h : RP a P c) : a.f P.x = c.1 := congrArg Prod.fst h
theorem RP.y {a : Asg} {P : PVar} {c : PtV} (h : RP a P c) : a.f P.y = c.2 := congrArg Prod.snd h

structure PolicyReads (a : Asg) (v : PolicyVar) (p : PolicyV) : Prop where
  viewer : RP a v.viewer_pk p.viewer_pk
  cred : RP a v.cred_pk p.cred_pk
  freezer : RP a v.freezer_pk p.freezer_pk
  map : a.f v.reveal_map = p.reveal_map
  threshold : a.f v.reveal_threshold = p.reveal_threshold

structure RecordReads (a : Asg) (v : RecordVar) (r : RecordV) : Prop where
  amount : a.f v.amount = r.amount
  code : a.f v.asset_code = r.asset_code
  owner : RP a v.owner_addr r.owner_addr
  policy : PolicyReads a v.policy r.policy
  flag : RB a v.freeze_flag r.freeze_flag
  blind : a.f v.blind = r.blind

structure CredReads (a : Asg) (v : CredVar) (c : CredV) : Prop where
  attrs : v.attrs.map a.f = c.attrs
  expiry : a.f v.expiry = c.expiry
  cred : a.s v.cred = c.cred
  user : RP a v.user_addr c.user_addr
  creator : RP a v.creator_pk c.creator_pk

structure AccReads (a : Asg) (v : AccVar) (c : AccV) : Prop where
  uid : a.f v.uid = c.uid
  path : pathOf ((pathVars v.path).map a.f) = c.path

structure MemoReads (a : Asg) (v : MemoVar) (m : MemoV) : Prop where
  ephemeral : RP a v.ephemeral m.ephemeral
  data : v.symm_ctxts.map a.f = m.data

structure InputReads (a : Asg) (v : InputVar) (i : InputV) : Prop where
  sk : a.f v.addr_secret = i.addr_secret
  ro : RecordReads a v.ro i.ro
  acc : AccReads a v.acc i.acc
  cred : CredReads a v.cred i.cred

structure TransferWitReads (a : Asg) (v : TransferWitVar) (w : TransferWit) : Prop where
  code : a.f v.asset_code = w.asset_code
  policy : PolicyReads a v.policy w.policy
  inputs : List.Forall₂ (InputReads a) v.inputs w.inputs
  outputs : List.Forall₂ (RecordReads a) v.outputs w.outputs
  rand : a.f v.enc_rand = w.enc_rand

structure TransferPubReads (a : Asg) (v : TransferPubVar) (p : TransferPub) : Prop where
  root : a.f v.root = p.root
  native : a.f v.native_asset_code = p.native_asset_code
  valid : a.f v.valid_until = p.valid_until
  fee : a.f v.fee = p.fee
  nullifiers : v.nullifiers.map a.f = p.nullifiers
  commitments : v.commitments.map a.f = p.commitments
  memo : MemoReads a v.memo p.memo

structure MintWitReads (a : Asg) (v : MintWitVar) (w : MintWit) : Prop where
  mint : RecordReads a v.mint_ro w.mint_ro
  sk : a.f v.creator_sk = w.creator_sk
  fee : RecordReads a v.fee_ro w.fee_ro
  acc : AccReads a v.acc w.acc
  chg : RecordReads a v.chg_ro w.chg_ro
  seed : a.f v.ac_seed = w.ac_seed
  digest : a.f v.ac_digest = w.ac_digest
  rand : a.f v.enc_rand = w.enc_rand

structure MintPubReads (a : Asg) (v : MintPubVar) (p : MintPub) : Prop where
  root : a.f v.root = p.root
  native : a.f v.native_asset_code = p.native_asset_code
  nullifier : a.f v.input_nullifier = p.input_nullifier
  fee : a.f v.fee = p.fee
  mint_rc : a.f v.mint_rc = p.mint_rc
  chg_rc : a.f v.chg_rc = p.chg_rc
  amount : a.f v.mint_amount = p.mint_amount
  ac : a.f v.mint_ac = p.mint_ac
  internal : a.f v.mint_internal_ac = p.mint_internal_ac
  policy : PolicyReads a v.mint_policy p.mint_policy
  memo : MemoReads a v.memo p.memo

structure FreezeWitReads (a : Asg) (v : FreezeWitVar) (w : FreezeWit) : Prop where
  ros : List.Forall₂ (RecordReads a) v.input_ros (w.fee_ro :: w.inputs.map (·.ro))
  accs : List.Forall₂ (AccReads a) v.accs (w.fee_acc :: w.inputs.map (·.acc))
  outs : List.Forall₂ (RecordReads a) v.output_ros (w.chg_ro :: w.inputs.map (·.out))
  fee_sk : a.f v.fee_sk = w.fee_sk
  sks : v.freezing_sks.map a.f = w.inputs.map (·.sk)

structure FreezePubReads (a : Asg) (v : FreezePubVar) (p : FreezePub) : Prop where
  root : a.f v.root = p.root
  native : a.f v.native_asset_code = p.native_asset_code
  fee : a.f v.fee = p.fee
  nullifiers : v.nullifiers.map a.f = p.fee_nullifier :: p.nullifiers
  commitments : v.commitments.map a.f = p.chg_commitment :: p.commitments

theorem forall₂_RB {a : Asg} : ∀ {l : List BVar} {m : List Bool}, (l.map fun b => a.f b.v) = m.map boolF →
    List.Forall₂ (RB a) l m
  | [], [], _ => .nil
  | [], _ :: _, h => by simp at h
  | _ :: _, [], h => by simp at h
  | b :: l, c :: m, h => by
    simp only [List.map_cons, List.cons.injEq] at h
    exact .cons h.1 (forall₂_RB h.2)

/-! ### Single calls -/

section calls
variable {a : Asg}

theorem Den.enforceConstant {v : Var} {x : F} (h : a.f v = x) (c : F) :
    Den a (enforceConstant v c) (fun _ => True) (x = c) := Den.assertG _ _ (by simp [Assertion.Holds, h])

theorem Den.enforceFalse {v : BVar} {x : Bool} (h : RB a v x) :
    Den a (Plonk.enforceConstant v.v 0) (fun _ => True) (x = false) :=
  (Den.enforceConstant h 0).iff boolF_eq_zero

theorem Den.enforceEqual {v w : Var} {x y : F} (h : a.f v = x) (h' : a.f w = y) :
    Den a (enforceEqual v w) (fun _ => True) (x = y) := Den.assertG _ _ (by simp [Assertion.Holds, h, h'])

theorem Den.addGate {u v w : Var} {x y z : F} (h : a.f u = x) (h' : a.f v = y) (h'' : a.f w = z) :
    Den a (addGate u v w) (fun _ => True) (x + y = z) := Den.assertG _ _ (by simp [Assertion.Holds, h, h', h''])

theorem Den.mulGate {u v w : Var} {x y z : F} (h : a.f u = x) (h' : a.f v = y) (h'' : a.f w = z) :
    Den a (mulGate u v w) (fun _ => True) (x * y = z) := Den.assertG _ _ (by simp [Assertion.Holds, h, h', h''])

theorem Den.logicOrGate {v w : BVar} {x y : Bool} (h : RB a v x) (h' : RB a w y) :
    Den a (logicOrGate v w) (fun _ => True) (x = true ∨ y = true) := by
  refine Den.assertG _ _ ?_
  simp only [RB] at h h'
  simp [Assertion.Holds, h, h', boolF_or_eq, boolF_eq_one]

theorem Den.enforceInRange {v : Var} {x : F} (h : a.f v = x) (n : ℕ) :
    Den a (enforceInRange v n) (fun _ => True) (InRange x n) := Den.assertG _ _ (by simp [Assertion.Holds, h])

theorem Den.enforcePointEqual {P Q : PVar} {c d : PtV} (h : RP a P c) (h' : RP a Q d) :
    Den a (enforcePointEqual P Q) (fun _ => True) (c = d) := by
  refine Den.assertG _ _ ?_
  rw [← h, ← h']
  rfl

theorem Den.scalar {v : Var} {x : F} (h : a.f v = x) : Den a (Plonk.assertG .scalar [v]) (fun _ => True) (okScalar x) :=
  Den.assertG _ _ (by simp [Assertion.Holds, h])

theorem Den.add {v w : Var} {x y : F} (h : a.f v = x) (h' : a.f w = y) : Den a (add v w) (fun z => a.f z = x + y) True :=
  Den.emit1 _ _ _ (by simp [Op.eval, h, h'])

theorem Den.sub {v w : Var} {x y : F} (h : a.f v = x) (h' : a.f w = y) : Den a (sub v w) (fun z => a.f z = x - y) True :=
  Den.emit1 _ _ _ (by simp [Op.eval, h, h'])

theorem Den.mul {v w : Var} {x y : F} (h : a.f v = x) (h' : a.f w = y) : Den a (mul v w) (fun z => a.f z = x * y) True :=
  Den.emit1 _ _ _ (by simp [Op.eval, h, h'])

theorem Den.addConstant {v : Var} {x : F} (h : a.f v = x) (c : F) :
    Den a (addConstant v c) (fun z => a.f z = x + c) True := Den.emit1 _ _ _ (by simp [Op.eval, h])

theorem Den.sum {l : List Var} {m : List F} (h : l.map a.f = m) : Den a (sum l) (fun z => a.f z = m.sum) True :=
  Den.emit1 _ _ _ (by simp [Op.eval, h])

theorem Den.lc {v1 v2 v3 v4 : Var} {x1 x2 x3 x4 : F} (h1 : a.f v1 = x1) (h2 : a.f v2 = x2) (h3 : a.f v3 = x3)
    (h4 : a.f v4 = x4) (q1 q2 q3 q4 : F) :
    Den a (lc v1 v2 v3 v4 q1 q2 q3 q4) (fun z => a.f z = q1 * x1 + (q2 * x2 + (q3 * x3 + q4 * x4))) True :=
  Den.emit1 _ _ _ (by simp [Op.eval, h1, h2, h3, h4])

theorem Den.isZero {v : Var} {x : F} (h : a.f v = x) : Den a (isZero v) (fun b => RB a b (decide (x = 0))) True :=
  Den.emitB _ _ _ (by simp [Op.eval, h])

theorem Den.isEqual {v w : Var} {x y : F} (h : a.f v = x) (h' : a.f w = y) :
    Den a (isEqual v w) (fun b => RB a b (decide (x = y))) True := Den.emitB _ _ _ (by simp [Op.eval, h, h'])

theorem Den.logicNeg {v : BVar} {x : Bool} (h : RB a v x) : Den a (logicNeg v) (fun b => RB a b (!x)) True := by
  simp only [RB] at h
  exact Den.emitB _ _ _ (by simp [Op.eval, h, boolF_not])

theorem Den.logicOr {v w : BVar} {x y : Bool} (h : RB a v x) (h' : RB a w y) :
    Den a (logicOr v w) (fun b => RB a b (x || y)) True := by
  simp only [RB] at h h'
  exact Den.emitB _ _ _ (by simp only [List.map_cons, List.map_nil, Op.eval, h, h', boolF_or_eq])

theorem Den.logicAnd {v w : BVar} {x y : Bool} (h : RB a v x) (h' : RB a w y) :
    Den a (logicAnd v w) (fun b => RB a b (x && y)) True := by
  simp only [RB] at h h'
  exact Den.emitB _ _ _ (by simp only [List.map_cons, List.map_nil, Op.eval, h, h', boolF_and_eq])

theorem Den.logicAndAll {l : List BVar} {m : List Bool} (h : List.Forall₂ (RB a) l m) :
    Den a (logicAndAll l) (fun b => RB a b (m.all id)) True := by
  refine Den.emitB _ _ _ ?_
  simp only [Op.eval, List.map_map]
  congr 1
  induction h with
  | nil => simp [boolF]
  | cons h _ ih =>
    simp only [RB] at h
    simp only [List.map_cons, List.prod_cons, List.all_cons, id, Function.comp, h] at ih ⊢
    rw [ih, boolF_and_eq]

theorem Den.conditionalSelect {b : BVar} {v w : Var} {c : Bool} {x y : F} (hb : RB a b c) (h : a.f v = x)
    (h' : a.f w = y) : Den a (conditionalSelect b v w) (fun z => a.f z = if c then y else x) True := by
  simp only [RB] at hb
  refine Den.emit1 _ _ _ ?_
  cases c <;> simp [Op.eval, h, h', hb, boolF]

theorem Den.isInRange {v : Var} {x : F} (h : a.f v = x) (n : ℕ) :
    Den a (isInRange v n) (fun b => RB a b (decide (InRange x n))) True := Den.emitB _ _ _ (by simp [Op.eval, h])

theorem Den.isPointEqual {P Q : PVar} {c d : PtV} (h : RP a P c) (h' : RP a Q d) :
    Den a (isPointEqual P Q) (fun b => RB a b (decide (c = d))) True := by
  refine Den.emitB _ _ _ ?_
  rw [← h, ← h']
  rfl

theorem Den.isNeutralPoint {P : PVar} {c : PtV} (h : RP a P c) :
    Den a (isNeutralPoint P) (fun b => RB a b (decide (c = neutral))) True := by
  refine Den.emitB _ _ _ ?_
  rw [← h]
  rfl

theorem Den.unpack {v : Var} {x : F} (h : a.f v = x) (n : ℕ) :
    Den a (unpack v n) (fun l => List.Forall₂ (RB a) l ((List.range n).map fun i => x.val.testBit i)) (InRange x n) := by
  refine ((Den.enforceInRange h n).bind (B := True) fun _ _ =>
    ((Den.emits (.unpack n) [v] []).bind (B := True) fun l hl => Den.pure ?_).iff (by simp)).iff (by simp)
  simp only [List.map_cons, List.map_nil, Op.eval, h] at hl
  refine forall₂_RB ?_
  rw [List.map_map, List.map_map]
  exact hl

theorem Den.fixedBaseScalarMul {v : Var} {x : F} (h : a.f v = x) :
    Den a (fixedBaseScalarMul v) (fun P => RP a P (deriveUserAddressV x)) (okScalar x) :=
  ((Den.scalar h).bind fun _ _ => Den.emitP _ _ (by simp [Op.eval, h, deriveUserAddressV])).iff (by simp)

theorem Den.variableBaseScalarMul {v : Var} {x : F} {P : PVar} {c : PtV} (h : a.f v = x) (hP : RP a P c) :
    Den a (variableBaseScalarMul v P) (fun Q => RP a Q (E.ecMul x.val c)) (okScalar x) := by
  refine ((Den.scalar h).bind fun _ _ => Den.emitP _ _ ?_).iff (by simp)
  rw [← hP, ← h]
  rfl

theorem Den.sponge3 {u v w : Var} {x y z : F} (h : a.f u = x) (h' : a.f v = y) (h'' : a.f w = z) :
    Den a (sponge3 u v w) (fun r => a.f r = E.hash3 x y z) True := Den.emit1 _ _ _ (by simp [Op.eval, h, h', h''])

theorem Den.evalPrf {k : Var} {x : F} {l : List Var} {m : List F} (h : a.f k = x) (h' : l.map a.f = m) :
    Den a (evalPrf k l) (fun r => a.f r = E.prf x m) True := Den.emit1 _ _ _ (by simp [Op.eval, h, h'])

theorem Den.commit {b : Var} {x : F} {l : List Var} {m : List F} (h' : l.map a.f = m) (h : a.f b = x) :
    Den a (commit l b) (fun r => a.f r = E.commit m x) True := Den.emit1 _ _ _ (by simp [Op.eval, h, h'])

theorem Den.checkSignature {P : PVar} {c : PtV} {l : List Var} {m : List F} {g : Var} {σ : E.Sig} (hP : RP a P c)
    (h : l.map a.f = m) (hg : a.s g = σ) :
    Den a (checkSignature P l g) (fun b => RB a b (E.schnorrVerify c m σ)) True := by
  refine Den.emitB _ _ _ ?_
  rw [← hP]
  simp [Op.eval, h, hg]

theorem Den.computeMerkleRoot {u e : Var} {x y : F} {path : List NodeVar} {l : List PathNode} (h : a.f u = x)
    (h' : a.f e = y) (hp : pathOf ((pathVars path).map a.f) = l) :
    Den a (computeMerkleRoot u e path) (fun r => a.f r = merkleRoot x y l) True :=
  Den.emit1 _ _ _ (by simp [Op.eval, h, h', hp])

theorem Den.elgamalEncrypt {P : PVar} {c : PtV} {l : List Var} {m : List F} {r : Var} {x : F} (hP : RP a P c)
    (h : l.map a.f = m) (hr : a.f r = x) :
    Den a (elgamalEncrypt P l r) (fun v => MemoReads a v (MemoV.derive c m x)) (okScalar x) := by
  refine ((Den.scalar hr).bind (B := True) fun _ _ => ((Den.emits .elgamal _ []).bind (B := True) fun l hl => ?_).iff
    (by simp)).iff (by simp)
  simp only [List.map_cons, List.map_nil, Op.eval, h, hr] at hl
  rw [show (a.f P.x, a.f P.y) = c from hP] at hl
  rcases l with _ | ⟨x, _ | ⟨y, l⟩⟩
  · simp at hl
  · simp at hl
  · simp only [List.map_cons, List.cons.injEq] at hl
    exact Den.pure ⟨Prod.ext hl.1 hl.2.1, hl.2.2⟩

theorem neutral_reads (ha : Consts a) : RP a neutralPoint neutral := by
  simp only [RP, neutralPoint, Plonk.zero, Plonk.one, ha.zero, ha.one]
  rfl

end calls

/-! ### The functions of `circuit/structs.rs` -/

section structs
variable {a : Asg}

theorem Den.checkEqualFrom : ∀ {l : List (Var × Var)} {b : BVar} {x : Bool}, RB a b x →
    Den a (checkEqualFrom b l) (fun z => RB a z (x && decide (l.map (fun i => a.f i.1) = l.map fun i => a.f i.2))) True
  | [], b, x, h => (Den.pure (by simpa using h)).iff Iff.rfl
  | (u, v) :: l, b, x, h =>
    (Den.bind (Den.isEqual rfl rfl) fun _ h1 => Den.bind (Den.logicAnd h h1) fun _ h2 =>
      (Den.checkEqualFrom h2).post fun z hz => by
        have : ((x && decide (a.f u = a.f v)) && decide (l.map (fun i => a.f i.1) = l.map fun i => a.f i.2)) =
            (x && decide (((u, v) :: l).map (fun i => a.f i.1) = ((u, v) :: l).map fun i => a.f i.2)) := by
          simp only [List.map_cons, List.cons.injEq, Bool.decide_and, Bool.and_assoc]
        rw [← this]
        exact hz).iff (by simp)

theorem Den.memoCheckEqual {v w : MemoVar} {m n : MemoV} (h : MemoReads a v m) (h' : MemoReads a w n) :
    Den a (v.checkEqual w) (fun b => RB a b (decide (m = n))) (m.data.length = n.data.length) := by
  unfold MemoVar.checkEqual
  split
  · exact Den.fail
  · rename_i hl
    have hl : w.symm_ctxts.length = v.symm_ctxts.length := not_not.1 hl
    refine ((Den.isPointEqual h.ephemeral h'.ephemeral).bind fun b hb =>
      (Den.checkEqualFrom hb).post fun z hz => ?_).iff (by simp [← h.data, ← h'.data, hl])
    have e1 : (v.symm_ctxts.zip w.symm_ctxts).map (fun i => a.f i.1) = m.data := by
      rw [← h.data, ← List.map_fst_zip (l₁ := v.symm_ctxts) (l₂ := w.symm_ctxts) (by omega), List.map_map]
      simp [Function.comp_def, List.map_fst_zip, hl]
    have e2 : (v.symm_ctxts.zip w.symm_ctxts).map (fun i => a.f i.2) = n.data := by
      rw [← h'.data, ← List.map_snd_zip (l₁ := v.symm_ctxts) (l₂ := w.symm_ctxts) (by omega), List.map_map]
      simp [Function.comp_def, List.map_snd_zip, hl]
    rw [e1, e2] at hz
    have : (decide (m.ephemeral = n.ephemeral) && decide (m.data = n.data)) = decide (m = n) := by
      cases m
      cases n
      simp
    rwa [this] at hz

theorem Den.enforceDummy (ha : Consts a) {v : PolicyVar} {p : PolicyV} (h : PolicyReads a v p) :
    Den a v.enforceDummy (fun _ => True) p.EnforceDummy :=
  (Den.bind (Den.enforcePointEqual h.viewer (neutral_reads ha)) fun _ _ =>
    Den.bind (Den.enforcePointEqual h.cred (neutral_reads ha)) fun _ _ =>
    Den.bind (Den.enforcePointEqual h.freezer (neutral_reads ha)) fun _ _ =>
    Den.bind (Den.enforceConstant h.map 0) fun _ _ => Den.enforceConstant h.threshold 0).iff Iff.rfl

theorem Den.isDummyCredPk {v : PolicyVar} {p : PolicyV} (h : PolicyReads a v p) :
    Den a v.isDummyCredPk (fun b => RB a b p.isDummyCredPk) True := Den.isNeutralPoint h.cred
theorem Den.isDummyViewingPk {v : PolicyVar} {p : PolicyV} (h : PolicyReads a v p) :
    Den a v.isDummyViewingPk (fun b => RB a b p.isDummyViewingPk) True := Den.isNeutralPoint h.viewer
theorem Den.isDummyFreezerPk {v : PolicyVar} {p : PolicyV} (h : PolicyReads a v p) :
    Den a v.isDummyFreezerPk (fun b => RB a b p.isDummyFreezerPk) True := Den.isNeutralPoint h.freezer

theorem Den.isDummyPolicy {v : PolicyVar} {p : PolicyV} (h : PolicyReads a v p) :
    Den a v.isDummyPolicy (fun b => RB a b p.isDummyPolicy) True :=
  (Den.bind (Den.isDummyViewingPk h) fun _ h1 => Den.bind (Den.isDummyCredPk h) fun _ h2 =>
    Den.bind (Den.isDummyFreezerPk h) fun _ h3 => Den.bind (Den.add h.map h.threshold) fun _ h4 =>
    Den.bind (Den.isZero h4) fun _ h5 =>
      (Den.logicAndAll (.cons h1 (.cons h2 (.cons h3 (.cons h5 .nil))))).post fun z hz => by
        have : p.isDummyPolicy = [p.isDummyViewingPk, p.isDummyCredPk, p.isDummyFreezerPk,
            decide (p.reveal_map + p.reveal_threshold = 0)].all id := by
          simp [PolicyV.isDummyPolicy, Bool.and_assoc]
        rw [this]
        exact hz).iff (by simp)

theorem Den.policyEqual {v w : PolicyVar} {p q : PolicyV} (h : PolicyReads a v p) (h' : PolicyReads a w q) :
    Den a (v.enforceEqual w) (fun _ => True) (p.EnforceEqual q) :=
  (Den.bind (Den.enforceEqual h.map h'.map) fun _ _ => Den.bind (Den.enforceEqual h.threshold h'.threshold) fun _ _ =>
    Den.bind (Den.enforcePointEqual h.viewer h'.viewer) fun _ _ =>
    Den.bind (Den.enforcePointEqual h.cred h'.cred) fun _ _ => Den.enforcePointEqual h.freezer h'.freezer).iff Iff.rfl

theorem Den.policyCheckEqual {v w : PolicyVar} {p q : PolicyV} (h : PolicyReads a v p) (h' : PolicyReads a w q) :
    Den a (v.checkEqual w) (fun b => RB a b (p.checkEqual q)) True :=
  (Den.bind (Den.isEqual h.map h'.map) fun _ h1 => Den.bind (Den.isPointEqual h.viewer h'.viewer) fun _ h2 =>
    Den.bind (Den.isPointEqual h.cred h'.cred) fun _ h3 => Den.bind (Den.isPointEqual h.freezer h'.freezer) fun _ h4 =>
    Den.bind (Den.isEqual h.threshold h'.threshold) fun _ h5 =>
      (Den.logicAndAll (.cons h1 (.cons h2 (.cons h3 (.cons h4 (.cons h5 .nil)))))).post fun z hz => by
        have : p.checkEqual q = [decide (p.reveal_map = q.reveal_map), decide (p.viewer_pk = q.viewer_pk),
            decide (p.cred_pk = q.cred_pk), decide (p.freezer_pk = q.freezer_pk),
            decide (p.reveal_threshold = q.reveal_threshold)].all id := by
          simp [PolicyV.checkEqual, Bool.and_assoc]
        rw [this]
        exact hz).iff (by simp)

theorem Den.commitment (ha : Consts a) {v : RecordVar} {r : RecordV} (h : RecordReads a v r) :
    Den a v.commitment (fun z => a.f z = r.commitment) True := by
  refine (Den.bind (B := True) (Den.lc h.policy.map h.flag ha.zero ha.zero 2 1 0 0) fun z hz => ?_).iff (by simp)
  refine (Den.commit (m := r.scalars) ?_ h.blind).post fun _ h => h
  simp only [List.map_cons, List.map_nil, hz, h.amount, h.code, h.owner.x, h.owner.y, h.policy.viewer.x,
    h.policy.viewer.y, h.policy.cred.x, h.policy.cred.y, h.policy.freezer.x, h.policy.freezer.y, h.policy.threshold,
    RecordV.scalars]
  simp

theorem Den.isDummy {v : RecordVar} {r : RecordV} (h : RecordReads a v r) :
    Den a v.isDummy (fun b => RB a b r.isDummy) True :=
  (Den.bind (Den.addConstant h.code (-dummyCode)) fun z hz => (Den.isZero hz).post fun b hb => by
    have : decide (r.asset_code + -dummyCode = 0) = r.isDummy := by
      unfold RecordV.isDummy
      congr 1
      rw [← sub_eq_add_neg, sub_eq_zero]
    rwa [this] at hb).iff (by simp)

theorem Den.credVerify {v : CredVar} {c : CredV} (h : CredReads a v c) {u : Var} {x : F} (hu : a.f u = x) :
    Den a (v.verify u) (fun b => RB a b c.sigValid) (c.attrs.length = ATTRS_LEN ∧ c.EnforceNotExpired x) := by
  unfold CredVar.verify
  split
  · exact Den.fail
  · rename_i hl
    have hl : v.attrs.length = ATTRS_LEN := not_not.1 hl
    refine (Den.bind (Den.sub h.expiry hu) fun d hd => Den.bind (Den.enforceInRange hd _) fun _ _ =>
      Den.checkSignature h.creator (m := c.msg) ?_ h.cred).iff ?_
    · simp [CredV.msg, h.expiry, h.user.x, h.user.y, h.attrs]
    · have : c.attrs.length = ATTRS_LEN := by rw [← h.attrs, List.length_map, hl]
      simp [this, CredV.EnforceNotExpired]

/-! ### The functions of `circuit/gadgets.rs` and `circuit/gadgets_helper.rs` -/

theorem Den.deriveNullifierKey (ha : Consts a) {v : Var} {x : F} {P : PVar} {c : PtV} (h : a.f v = x) (hP : RP a P c) :
    Den a (deriveNullifierKey v P) (fun z => a.f z = deriveNullifierKeyV x c) (okScalar x) :=
  (Den.bind (Den.variableBaseScalarMul h hP) fun Q hQ => Den.bind (Den.sponge3 hQ.x hQ.y ha.zero) fun _ h1 =>
    Den.bind (Den.isNeutralPoint hP) fun _ h2 => (Den.conditionalSelect h2 h1 h).post fun z hz => by
      rw [hz]
      simp [deriveNullifierKeyV]).iff (by simp)

theorem Den.nullify {k u c : Var} {x y z : F} (h : a.f k = x) (h' : a.f u = y) (h'' : a.f c = z) :
    Den a (nullify k u c) (fun r => a.f r = nullifyV x y z) True := Den.evalPrf h (by simp [h', h''])

theorem Den.deriveInternalAssetCode {k u : Var} {x y : F} (h : a.f k = x) (h' : a.f u = y) :
    Den a (deriveInternalAssetCode k u) (fun r => a.f r = deriveInternalAssetCodeV x y) True :=
  Den.evalPrf h (by simp [h'])

theorem Den.proveSpend (ha : Consts a) {v : RecordVar} {r : RecordV} (h : RecordReads a v r) {u : AccVar} {c : AccV}
    (hc : AccReads a u c) {k : Var} {x : F} (hk : a.f k = x) (s : Spender) :
    Den a (proveSpend v u k s)
      (fun z => a.f z.1 = spendNullifier r c x s ∧ a.f z.2 = spendRoot r c) (SpendOk r x s) := by
  have main : ∀ P Q : PVar, RP a P (spendPk r s) → RP a Q (spendOtherPk r s) →
      Den a (do
        let pk ← deriveUserAddress k
        Plonk.enforcePointEqual pk P
        let commitment ← v.commitment
        let nk ← Plonk.deriveNullifierKey k Q
        let nullifier ← Plonk.nullify nk u.uid commitment
        let root ← Plonk.computeMerkleRoot u.uid commitment u.path
        Pure.pure (nullifier, root))
      (fun z => a.f z.1 = spendNullifier r c x s ∧ a.f z.2 = spendRoot r c) (SpendOk r x s) := by
    intro P Q hP hQ
    refine (Den.bind (Den.fixedBaseScalarMul hk) fun _ h1 => Den.bind (Den.enforcePointEqual h1 hP) fun _ _ =>
      Den.bind (Den.commitment ha h) fun _ h2 => Den.bind (Den.deriveNullifierKey ha hk hQ) fun _ h3 =>
      Den.bind (Den.nullify h3 hc.uid h2) fun _ h4 => Den.bind (Den.computeMerkleRoot hc.uid h2 hc.path) fun _ h5 =>
      Den.pure ⟨h4, h5⟩).iff ?_
    unfold SpendOk
    tauto
  cases s with
  | user => exact main _ _ h.owner h.policy.freezer
  | freezer => exact main _ _ h.policy.freezer h.owner

theorem Den.sumRest (ha : Consts a) {l : List Var} {m : List F} (h : l.map a.f = m) :
    Den a (sumRest l) (fun z => a.f z = sumTail m) True := by
  subst h
  rcases l with _ | ⟨x, _ | ⟨y, l⟩⟩
  · exact (Den.sum rfl).post fun _ h => h
  · exact Den.pure (by simp [sumTail, Plonk.zero, ha.zero])
  · exact (Den.sum rfl).post fun _ h => h

theorem Den.preserveBalance (ha : Consts a) {u v w : Var} {native asset fee : F} (hu : a.f u = native) (hv : a.f v = asset)
    (hw : a.f w = fee) {i j : Var} {is js : List Var} :
    Den a (preserveBalance u v w (i :: is) (j :: js)) (fun z => a.f z = sumTail ((i :: is).map a.f))
      (PreserveBalance native asset fee (a.f i) (a.f j) ((i :: is).map a.f) ((j :: js).map a.f)) := by
  refine (Den.bind (Den.sumRest ha rfl) fun _ h1 => Den.bind (Den.sumRest ha rfl) fun _ h2 =>
    Den.bind (Den.sub h1 h2) fun d hd => Den.bind (Den.lc rfl rfl hw ha.zero 1 (-1) (-1) 1) fun e he =>
    Den.bind (Den.isEqual hu hv) fun b hb => Den.bind (Den.assertG _ _ (A := boolF (decide (native = asset)) *
        (sumTail ((i :: is).map a.f) - sumTail ((j :: js).map a.f)) + boolF (decide (native = asset)) *
        (a.f i - a.f j - fee) = 0) ?_) fun _ _ =>
    Den.bind (Den.mulGate hb hd hd) fun _ _ => Den.bind (Den.mulGate hb he he) fun _ _ => Den.pure h1).iff ?_
  · have he' : a.f e = a.f i - a.f j - fee := by rw [he]; ring
    simp only [RB] at hb
    simp only [List.map_cons, List.map_nil, Assertion.Holds, hb, hd, he', Plonk.zero, ha.zero, one_mul]
  · have : (1 : F) * a.f i + (-1 * a.f j + (-1 * fee + 1 * 0)) = a.f i - a.f j - fee := by ring
    rw [this]
    simp only [PreserveBalance, true_and, and_true]

theorem Den.hadamard {l m : List Var} {bs vs : List F} (h : l.map a.f = bs) (h' : m.map a.f = vs) :
    Den a (hadamard l m) (fun z => z.map a.f = hadamardV bs vs ∧ z.length = m.length) True := by
  unfold Plonk.hadamard
  split
  · exact Den.fail
  · rename_i hl
    have hl : l.length = m.length := not_not.1 hl
    refine (Den.collect (Q := fun x z => a.f z = a.f x.1 * a.f x.2) fun x _ => Den.mul rfl rfl).post fun z hz => ?_
    refine ⟨?_, by rw [← hz.length_eq]; simp [hl]⟩
    subst h
    subst h'
    rw [hadamardV, List.zipWith_map, ← List.map_uncurry_zip_eq_zipWith]
    generalize l.zip m = q at hz
    induction hz with
    | nil => rfl
    | cons h _ ih => simp [h, ih, Function.uncurry]

end structs

end Cap.Plonk
