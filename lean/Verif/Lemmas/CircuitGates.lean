/-
What the gates of the three circuits say about any assignment.
-/
import Verif.Lemmas.CircuitDen

namespace Cap.Plonk

variable [E : CapEnv]

section gates
variable {a : Asg}

theorem Den.collect₂ {α β γ : Type} {f : α → Prog β} {R : α → γ → Prop} {Q : γ → β → Prop}
    (hf : ∀ x y, R x y → Den a (f x) (Q y) True) {l : List α} {m : List γ} (h : List.Forall₂ R l m) :
    Den a (Plonk.collect f l) (List.Forall₂ Q m) True := by
  induction h with
  | nil => exact Den.pure .nil
  | cons h _ ih =>
    exact (Den.bind (hf _ _ h) fun _ h1 => Den.bind ih fun _ h2 => Den.pure (.cons h1 h2)).iff (by simp)

theorem Den.forEach₂ {α γ : Type} {f : α → Prog Unit} {R : α → γ → Prop} {P : γ → Prop}
    (hf : ∀ x y, R x y → Den a (f x) (fun _ => True) (P y)) {l : List α} {m : List γ} (h : List.Forall₂ R l m) :
    Den a (Plonk.forEach f l) (fun _ => True) (∀ y ∈ m, P y) := by
  induction h with
  | nil => exact (Den.pure trivial).iff (by simp)
  | cons h _ ih => exact (Den.bind (hf _ _ h) fun _ _ => ih).iff (by simp)

theorem Den.forPos {α γ : Type} {f : Bool → α → Var → Prog Unit} {R : α → γ → Prop} {P : Bool → γ → F → Prop}
    (hf : ∀ b x y v, R x y → Den a (f b x v) (fun _ => True) (P b y (a.f v))) {l : List α} {m : List γ}
    (h : List.Forall₂ R l m) : ∀ (vs : List Var) (b : Bool), Den a (Plonk.forPos f b l vs) (fun _ => True) (AllPos P b m (vs.map a.f)) := by
  induction h with
  | nil => exact fun vs b => (Den.pure trivial).iff (by cases vs <;> simp [AllPos])
  | cons h _ ih =>
    intro vs b
    cases vs with
    | nil => exact (Den.pure trivial).iff (by simp [AllPos])
    | cons v vs => exact (Den.bind (hf b _ _ v h) fun _ _ => ih vs false).iff (by simp [AllPos])

theorem forall₂_map_eq {α β : Type} {R : α → β → Prop} {f : α → F} {g : β → F} (h : ∀ x y, R x y → f x = g y)
    {l : List α} {m : List β} (hl : List.Forall₂ R l m) : l.map f = m.map g := by
  induction hl with
  | nil => rfl
  | cons hx _ ih => simp [h _ _ hx, ih]

theorem forall₂_tail {α β : Type} {R : α → β → Prop} {l : List α} {m : List β} (hl : List.Forall₂ R l m) :
    List.Forall₂ R l.tail m.tail := by
  cases hl with
  | nil => exact .nil
  | cons _ h => exact h

/-! ### `circuit/transfer.rs` -/

theorem Den.transferInputPos (ha : Consts a) {wv : TransferWitVar} {w : TransferWit} (hw : TransferWitReads a wv w)
    {pv : TransferPubVar} {p : TransferPub} (hp : TransferPubReads a pv p) (first : Bool) {iv : InputVar} {i : InputV}
    (hi : InputReads a iv i) {d n : BVar} (hd : RB a d i.ro.isDummy) (hn : RB a n (!i.ro.isDummy)) :
    Den a (transferInputPos wv pv first iv d n) (fun _ => True) (InputPosOk w p first i) := by
  cases first with
  | true =>
    refine (Den.bind (Den.enforceEqual hi.ro.code hp.native) fun _ _ => Den.enforceDummy ha hi.ro.policy).iff ?_
    simp [InputPosOk]
  | false =>
    refine (Den.bind (Den.isDummyPolicy hi.ro.policy) fun _ h1 => Den.bind (Den.logicOrGate hn h1) fun _ _ =>
      Den.bind (Den.policyCheckEqual hi.ro.policy hw.policy) fun _ h2 => Den.logicOrGate hd h2).iff ?_
    simp [InputPosOk]

theorem Den.transferInput (ha : Consts a) {wv : TransferWitVar} {w : TransferWit} (hw : TransferWitReads a wv w)
    {pv : TransferPubVar} {p : TransferPub} (hp : TransferPubReads a pv p) (first : Bool) {iv : InputVar} {i : InputV}
    (hi : InputReads a iv i) (nl : Var) :
    Den a (transferInput wv pv first iv nl) (fun _ => True) (InputOk w p first i (a.f nl)) := by
  refine (Den.bind (Den.enforceFalse hi.ro.flag) fun _ _ => Den.bind (Den.isDummy hi.ro) fun _ h1 =>
    Den.bind (Den.isZero hi.ro.amount) fun _ h2 => Den.bind (Den.logicNeg h1) fun _ h3 =>
    Den.bind (Den.logicOrGate h3 h2) fun _ _ => Den.bind (Den.transferInputPos ha hw hp first hi h1 h3) fun _ _ =>
    Den.bind (Den.proveSpend ha hi.ro hi.acc hi.sk .user) fun z hz =>
    Den.bind (Den.enforceEqual hz.1 rfl) fun _ _ => Den.bind (Den.isEqual hz.2 hp.root) fun _ h4 =>
    Den.bind (Den.logicOrGate h1 h4) fun _ _ => Den.bind (Den.isDummyCredPk hi.ro.policy) fun _ h5 =>
    Den.bind (Den.credVerify hi.cred hp.valid) fun _ h6 => Den.logicOrGate h5 h6).iff ?_
  simp only [InputOk, true_and, Bool.not_eq_true', decide_eq_true_eq, and_assoc]

theorem Den.transferOutput (ha : Consts a) {wv : TransferWitVar} {w : TransferWit} (hw : TransferWitReads a wv w)
    {pv : TransferPubVar} {p : TransferPub} (hp : TransferPubReads a pv p) (first : Bool) {ov : RecordVar} {o : RecordV}
    (ho : RecordReads a ov o) (rc : Var) :
    Den a (transferOutput wv pv first ov rc) (fun _ => True) (OutputOk w p first o (a.f rc)) := by
  have rest : Den a (do
      let rc' ← ov.commitment
      Plonk.enforceEqual rc' rc
      Plonk.enforceInRange ov.amount AMOUNT_LEN) (fun _ => True) (o.commitment = a.f rc ∧ InRange o.amount AMOUNT_LEN) :=
    (Den.bind (Den.commitment ha ho) fun _ h1 => Den.bind (Den.enforceEqual h1 rfl) fun _ _ =>
      Den.enforceInRange ho.amount _).iff (by simp)
  cases first with
  | true =>
    refine (Den.bind (Den.enforceFalse ho.flag) fun _ _ => Den.bind (Den.bind (Den.enforceEqual ho.code hp.native) fun _ _ =>
      Den.enforceDummy ha ho.policy) fun _ _ => rest).iff ?_
    simp [OutputOk]
  | false =>
    refine (Den.bind (Den.enforceFalse ho.flag) fun _ _ => Den.bind (Den.bind (Den.enforceEqual ho.code hw.code) fun _ _ =>
      Den.policyEqual ho.policy hw.policy) fun _ _ => rest).iff ?_
    simp [OutputOk]

theorem zipWith_zip {α : Type} (f : α → F → F) : ∀ (A : List F) (R : List α),
    List.zipWith f ((A.zip R).map (·.2)) ((A.zip R).map (·.1)) = List.zipWith f R A
  | [], R => by cases R <;> simp
  | _ :: _, [] => by simp
  | x :: A, r :: R => by simp [zipWith_zip f A R]

/-- the bits of the reveal map as the circuit uses them -/
def mapBits (x : F) : List Bool := (List.range 12).map (mapBit x)

theorem Den.inputMessage (ha : Consts a) {reveal : List BVar} {x : F} (hr : List.Forall₂ (RB a) reveal (mapBits x))
    {iv : InputVar} {i : InputV} (hi : InputReads a iv i) :
    Den a (inputMessage reveal iv) (fun z => z.map a.f = inputMsgV x i) True := by
  have hrange : List.range 12 = [0, 1, 2, 3, 4, 5, 6, 7, 8, 9, 10, 11] := rfl
  simp only [mapBits, hrange, List.map_cons, List.map_nil] at hr
  obtain ⟨b0, l0, h0, r0, rfl⟩ := List.forall₂_cons_right_iff.1 hr
  obtain ⟨b1, l1, h1, r1, rfl⟩ := List.forall₂_cons_right_iff.1 r0
  obtain ⟨b2, l2, h2, r2, rfl⟩ := List.forall₂_cons_right_iff.1 r1
  obtain ⟨b3, l3, h3, r3, rfl⟩ := List.forall₂_cons_right_iff.1 r2
  obtain ⟨b4, l4, h4, r4, rfl⟩ := List.forall₂_cons_right_iff.1 r3
  obtain ⟨b5, l5, h5, r5, rfl⟩ := List.forall₂_cons_right_iff.1 r4
  obtain ⟨b6, l6, h6, r6, rfl⟩ := List.forall₂_cons_right_iff.1 r5
  obtain ⟨b7, l7, h7, r7, rfl⟩ := List.forall₂_cons_right_iff.1 r6
  obtain ⟨b8, l8, h8, r8, rfl⟩ := List.forall₂_cons_right_iff.1 r7
  obtain ⟨b9, l9, h9, r9, rfl⟩ := List.forall₂_cons_right_iff.1 r8
  obtain ⟨b10, l10, h10, r10, rfl⟩ := List.forall₂_cons_right_iff.1 r9
  obtain ⟨b11, l11, h11, r11, rfl⟩ := List.forall₂_cons_right_iff.1 r10
  obtain rfl := List.forall₂_nil_right_iff.1 r11
  refine (Den.bind (Den.isDummy hi.ro) fun d hd => Den.bind (Den.conditionalSelect hd hi.ro.owner.x (neutral_reads ha).x)
    fun _ hx => Den.bind (Den.conditionalSelect hd hi.ro.owner.y (neutral_reads ha).y) fun _ hy =>
    Den.bind (Den.logicOr hd h0) fun c hc => (Den.hadamard rfl rfl).post fun z hz => ?_).iff (by simp)
  rw [hz.1]
  simp only [RB] at *
  simp only [ASSET_TRACING_MAP_LEN, List.take, List.drop, List.set, List.map_cons, List.map_append, List.cons_append,
    List.nil_append, List.map_map, List.map_nil, hadamardV, List.zipWith_cons_cons, hx, hy, hi.ro.amount, hi.ro.blind, hc,
    h2, h3, inputMsgV]
  have e : ∀ R : List BVar, List.zipWith (· * ·) (((iv.cred.attrs.zip R).map (a.f ∘ (fun x : BVar => x.v) ∘ fun x => x.2)))
      ((iv.cred.attrs.zip R).map (a.f ∘ fun x => x.1)) = List.zipWith (· * ·) (R.map fun b => a.f b.v) i.cred.attrs := by
    intro R
    rw [← hi.cred.attrs]
    generalize iv.cred.attrs = A
    induction R generalizing A with
    | nil => cases A <;> simp
    | cons r R ih => cases A <;> simp [ih]
  simp only [Function.comp_def] at e ⊢
  rw [e]
  have hrange' : List.range' 2 10 = [2, 3, 4, 5, 6, 7, 8, 9, 10, 11] := rfl
  simp only [hrange', List.map_cons, List.map_nil, List.zipWith_cons_cons, h4, h5, h6, h7, h8, h9, h10, h11]
  cases i.ro.isDummy <;> simp

theorem Den.outputMessage {reveal : List BVar} {x : F} (hr : List.Forall₂ (RB a) reveal (mapBits x))
    {ov : RecordVar} {o : RecordV} (ho : RecordReads a ov o) :
    Den a (outputMessage reveal ov) (fun z => z.map a.f = outputMsgV x o) True := by
  have hrange : List.range 12 = [0, 1, 2, 3, 4, 5, 6, 7, 8, 9, 10, 11] := rfl
  simp only [mapBits, hrange, List.map_cons, List.map_nil] at hr
  obtain ⟨b0, l0, h0, r0, rfl⟩ := List.forall₂_cons_right_iff.1 hr
  obtain ⟨b1, l1, h1, r1, rfl⟩ := List.forall₂_cons_right_iff.1 r0
  obtain ⟨b2, l2, h2, r2, rfl⟩ := List.forall₂_cons_right_iff.1 r1
  obtain ⟨b3, l3, h3, r3, rfl⟩ := List.forall₂_cons_right_iff.1 r2
  refine (Den.hadamard rfl rfl).post fun z hz => ?_
  rw [hz.1]
  simp only [RB] at *
  have hrange' : List.range ASSET_TRACING_MAP_LEN = [0, 1, 2, 3] := rfl
  simp [hadamardV, outputMsgV, ASSET_TRACING_MAP_LEN, hrange', h0, h1, h2, h3, ho.owner.x, ho.owner.y, ho.amount, ho.blind,
    List.range, List.range.loop]

theorem map_flatten_eq {β : Type} {g : β → List F} {m : List β} {l : List (List Var)}
    (h : List.Forall₂ (fun y (z : List Var) => z.map a.f = g y) m l) : l.flatten.map a.f = m.flatMap g := by
  induction h with
  | nil => rfl
  | cons h _ ih => simp [h, ih]

theorem unpack_reverse (x : F) : ((List.range VIEWABLE_DATA_LEN).map fun i => x.val.testBit i).reverse = mapBits x := rfl

theorem forall₂_reverse {α β : Type} {R : α → β → Prop} {l : List α} {m : List β} (h : List.Forall₂ R l m) :
    List.Forall₂ R l.reverse m.reverse := List.forall₂_reverse_iff.2 h

theorem Den.transferCorrectMemo (ha : Consts a) {wv : TransferWitVar} {w : TransferWit} (hw : TransferWitReads a wv w)
    {pv : TransferPubVar} {p : TransferPub} (hp : TransferPubReads a pv p) :
    Den a (transferCorrectMemo wv pv) (fun b => RB a b (correctMemoV w p))
      (InRange w.policy.reveal_map VIEWABLE_DATA_LEN ∧ okScalar w.enc_rand ∧
        p.memo.data.length = (transferMsgV w).length) := by
  refine (Den.bind (Den.unpack hw.policy.map _) fun bits hb => Den.bind (Den.collect₂ (fun x y h => Den.inputMessage ha
    (x := w.policy.reveal_map) ?_ h) (forall₂_tail hw.inputs)) fun ins h1 => Den.bind (Den.collect₂ (fun x y h =>
    Den.outputMessage (x := w.policy.reveal_map) ?_ h) (forall₂_tail hw.outputs)) fun outs h2 =>
    Den.bind (Den.elgamalEncrypt hw.policy.viewer (m := transferMsgV w) ?_ hw.rand) fun _ h3 =>
    Den.memoCheckEqual hp.memo h3).iff ?_
  · rw [← unpack_reverse]
    exact forall₂_reverse hb
  · rw [← unpack_reverse]
    exact forall₂_reverse hb
  · simp [transferMsgV, map_flatten_eq h1, map_flatten_eq h2, hw.code]
  · simp [derive_len]

theorem Den.transferGates (ha : Consts a) {wv : TransferWitVar} {w : TransferWit} (hw : TransferWitReads a wv w)
    {pv : TransferPubVar} {p : TransferPub} (hp : TransferPubReads a pv p) :
    Den a (transferGates wv pv) (fun _ => True) (TransferSat w p) := by
  have hin : wv.inputs.map (fun i => a.f i.ro.amount) = w.inputs.map (·.ro.amount) :=
    forall₂_map_eq (fun x y h => h.ro.amount) hw.inputs
  have hout : wv.outputs.map (fun i => a.f i.amount) = w.outputs.map (·.amount) :=
    forall₂_map_eq (fun x y h => h.amount) hw.outputs
  have bal : Den a (Plonk.preserveBalance pv.native_asset_code wv.asset_code pv.fee (wv.inputs.map (·.ro.amount))
      (wv.outputs.map (·.amount))) (fun z => a.f z = sumTail (w.inputs.map (·.ro.amount))) (BalanceOk w p) := by
    unfold BalanceOk
    rcases hwi : w.inputs with _ | ⟨i, is⟩
    · have := hw.inputs
      rw [hwi, List.forall₂_nil_right_iff] at this
      rw [this]
      exact Den.fail
    rcases hwo : w.outputs with _ | ⟨o, os⟩
    · have := hw.outputs
      rw [hwo, List.forall₂_nil_right_iff] at this
      rw [this]
      cases wv.inputs <;> exact Den.fail
    rw [hwi] at hin
    rw [hwo] at hout
    rcases hvi : wv.inputs with _ | ⟨iv, ivs⟩
    · simp [hvi] at hin
    rcases hvo : wv.outputs with _ | ⟨ov, ovs⟩
    · simp [hvo] at hout
    rw [hvi] at hin
    rw [hvo] at hout
    refine (Den.preserveBalance ha hp.native hw.code hp.fee).mono (fun z hz => ?_) ?_
    · rw [hz, ← hin]
      simp [Function.comp_def]
    · simp only [List.map_cons, List.cons.injEq] at hin hout
      simp only [List.map_cons, List.map_map, Function.comp_def, hin, hout]
  refine (Den.bind (Den.forPos (fun b x y v (h : InputReads a x y) => Den.transferInput ha hw hp b h v) hw.inputs _ _) fun _ _ =>
    Den.bind (Den.forPos (fun b x y v (h : RecordReads a x y) => Den.transferOutput ha hw hp b h v) hw.outputs _ _) fun _ _ =>
    Den.bind bal fun _ h1 => Den.bind (Den.sub hw.policy.threshold h1) fun _ h2 => Den.bind (Den.isInRange h2 _) fun _ h3 =>
    Den.bind (Den.isDummyViewingPk hw.policy) fun _ h4 => Den.bind (Den.logicOr h3 h4) fun _ h5 =>
    Den.bind (Den.transferCorrectMemo ha hw hp) fun _ h6 => Den.logicOrGate h5 h6).iff ?_
  rw [hp.nullifiers, hp.commitments]
  constructor
  · rintro ⟨h1, h2, h3, -, -, -, -, ⟨h4, h5, h6⟩, h7⟩
    exact ⟨h1, h2, h3, h4, h5, h6, by simpa [underLimit] using h7⟩
  · rintro ⟨h1, h2, h3, h4, h5, h6, h7⟩
    exact ⟨h1, h2, h3, trivial, trivial, trivial, trivial, ⟨h4, h5, h6⟩, by simpa [underLimit] using h7⟩

/-! ### `circuit/mint.rs` -/

theorem Den.mintCorrectMemo {wv : MintWitVar} {w : MintWit} (hw : MintWitReads a wv w) {pv : MintPubVar} {p : MintPub}
    (hp : MintPubReads a pv p) :
    Den a (mintCorrectMemo wv pv.memo) (fun b => RB a b (mintCorrectMemoV w p))
      (okScalar w.enc_rand ∧ p.memo.data.length = 3) := by
  refine (Den.bind (Den.elgamalEncrypt hw.mint.policy.viewer (m := [w.mint_ro.owner_addr.1, w.mint_ro.owner_addr.2,
    w.mint_ro.blind]) ?_ hw.rand) fun _ h3 => Den.memoCheckEqual hp.memo h3).iff ?_
  · simp [hw.mint.owner.x, hw.mint.owner.y, hw.mint.blind]
  · simp [derive_len]

theorem Den.mintGates (ha : Consts a) {wv : MintWitVar} {w : MintWit} (hw : MintWitReads a wv w) {pv : MintPubVar}
    {p : MintPub} (hp : MintPubReads a pv p) : Den a (mintGates wv pv) (fun _ => True) (MintSat w p) := by
  refine (Den.bind (Den.commitment ha hw.mint) fun _ h1 => Den.bind (Den.enforceEqual h1 hp.mint_rc) fun _ _ =>
    Den.bind (Den.commitment ha hw.chg) fun _ h2 => Den.bind (Den.enforceEqual h2 hp.chg_rc) fun _ _ =>
    Den.bind (Den.deriveInternalAssetCode hw.seed hw.digest) fun _ h3 =>
    Den.bind (Den.enforceEqual h3 hp.internal) fun _ _ =>
    Den.bind (Den.addGate hp.fee hw.chg.amount hw.fee.amount) fun _ _ =>
    Den.bind (Den.proveSpend ha hw.fee hw.acc hw.sk .user) fun z hz =>
    Den.bind (Den.enforceEqual hz.2 hp.root) fun _ _ => Den.bind (Den.enforceEqual hz.1 hp.nullifier) fun _ _ =>
    Den.bind (Den.enforceFalse hw.mint.flag) fun _ _ => Den.bind (Den.enforceFalse hw.fee.flag) fun _ _ =>
    Den.bind (Den.enforceFalse hw.chg.flag) fun _ _ => Den.bind (Den.enforceInRange hw.mint.amount _) fun _ _ =>
    Den.bind (Den.enforceEqual hw.mint.amount hp.amount) fun _ _ =>
    Den.bind (Den.enforceEqual hw.mint.code hp.ac) fun _ _ =>
    Den.bind (Den.policyEqual hp.policy hw.mint.policy) fun _ _ =>
    Den.bind (Den.enforceEqual hw.chg.code hp.native) fun _ _ =>
    Den.bind (Den.enforceEqual hw.fee.code hp.native) fun _ _ =>
    Den.bind (Den.enforceDummy ha hw.chg.policy) fun _ _ => Den.bind (Den.enforceDummy ha hw.fee.policy) fun _ _ =>
    Den.bind (Den.enforcePointEqual hw.fee.owner hw.chg.owner) fun _ _ =>
    Den.bind (Den.isDummyViewingPk hp.policy) fun _ h4 => Den.bind (Den.mintCorrectMemo hw hp) fun _ h5 =>
    Den.logicOrGate h4 h5).iff ?_
  constructor
  · rintro ⟨-, a1, -, a2, -, a3, a4, a5, a6, a7, a8, a9, b1, b2, b3, b4, b5, b6, b7, b8, b9, c1, -, ⟨c2, c3⟩, c4⟩
    exact ⟨c3, a1, a2, a3, a4, a5, a6, a7, a8, a9, b1, b2, b3, b4, b5, b6, b7, b8, b9, c1, c2, c4⟩
  · rintro ⟨c3, a1, a2, a3, a4, a5, a6, a7, a8, a9, b1, b2, b3, b4, b5, b6, b7, b8, b9, c1, c2, c4⟩
    exact ⟨trivial, a1, trivial, a2, trivial, a3, a4, a5, a6, a7, a8, a9, b1, b2, b3, b4, b5, b6, b7, b8, b9, c1, trivial,
      ⟨c2, c3⟩, c4⟩

/-! ### `circuit/freeze.rs` -/

theorem Den.freezeFee (ha : Consts a) {pv : FreezePubVar} {p : FreezePub} (hp : FreezePubReads a pv p) {iv ov : RecordVar}
    {i o : RecordV} (hi : RecordReads a iv i) (ho : RecordReads a ov o) {cv : AccVar} {c : AccV} (hc : AccReads a cv c)
    {k : Var} {x : F} (hk : a.f k = x) {n : Var} {y : F} (hn : a.f n = y) :
    Den a (freezeFee pv iv ov cv k n) (fun _ => True)
      (i.asset_code = p.native_asset_code ∧ i.policy.EnforceDummy ∧ o.asset_code = p.native_asset_code ∧
        o.policy.EnforceDummy ∧ i.freeze_flag = false ∧ o.freeze_flag = false ∧ o.amount + p.fee = i.amount ∧
        SpendOk i x .user ∧ spendRoot i c = p.root ∧ spendNullifier i c x .user = y) :=
  (Den.bind (Den.enforceEqual hi.code hp.native) fun _ _ => Den.bind (Den.enforceDummy ha hi.policy) fun _ _ =>
    Den.bind (Den.enforceEqual ho.code hp.native) fun _ _ => Den.bind (Den.enforceDummy ha ho.policy) fun _ _ =>
    Den.bind (Den.enforceFalse hi.flag) fun _ _ => Den.bind (Den.enforceFalse ho.flag) fun _ _ =>
    Den.bind (Den.addGate ho.amount hp.fee hi.amount) fun _ _ =>
    Den.bind (Den.proveSpend ha hi hc hk .user) fun z hz => Den.bind (Den.enforceEqual hz.2 hp.root) fun _ _ =>
    Den.enforceEqual hz.1 hn).iff Iff.rfl

theorem Den.freezePair (ha : Consts a) {x : RecordVar × RecordVar} {i o : RecordV} (hi : RecordReads a x.1 i)
    (ho : RecordReads a x.2 o) : Den a (freezePair x) (fun _ => True)
      (boolF i.freeze_flag + boolF o.freeze_flag = 1 ∧ i.amount = o.amount ∧ i.owner_addr = o.owner_addr ∧
        i.asset_code = o.asset_code ∧ i.policy.EnforceEqual o.policy) :=
  (Den.bind (Den.addGate hi.flag ho.flag ha.one) fun _ _ => Den.bind (Den.enforceEqual hi.amount ho.amount) fun _ _ =>
    Den.bind (Den.enforcePointEqual hi.owner ho.owner) fun _ _ => Den.bind (Den.enforceEqual hi.code ho.code) fun _ _ =>
    Den.policyEqual hi.policy ho.policy).iff Iff.rfl

theorem Den.freezeOutput (ha : Consts a) {x : RecordVar × Var} {o : RecordV} (ho : RecordReads a x.1 o) {c : F}
    (hc : a.f x.2 = c) : Den a (freezeOutput x) (fun _ => True) (o.commitment = c) :=
  (Den.bind (Den.commitment ha ho) fun _ h1 => Den.enforceEqual h1 hc).iff (by simp)

theorem Den.freezeSpend (ha : Consts a) {pv : FreezePubVar} {p : FreezePub} (hp : FreezePubReads a pv p)
    {x : (RecordVar × AccVar) × Var × Var} {i : FreezeInputV} (hi : RecordReads a x.1.1 i.ro) (hc : AccReads a x.1.2 i.acc)
    (hk : a.f x.2.1 = i.sk) {y : F} (hn : a.f x.2.2 = y) :
    Den a (freezeSpend pv x) (fun _ => True) (FreezeSpendOk p i y) := by
  refine (Den.bind (Den.isDummyFreezerPk hi.policy) fun _ h1 => Den.bind (Den.logicNeg h1) fun _ h2 =>
    Den.bind (Den.isDummy hi) fun _ h3 => Den.bind (Den.logicOrGate h2 h3) fun _ _ =>
    Den.bind (Den.proveSpend ha hi hc hk .freezer) fun z hz => Den.bind (Den.isEqual hz.2 hp.root) fun _ h4 =>
    Den.bind (Den.logicOrGate h4 h3) fun _ _ => Den.enforceEqual hz.1 hn).iff ?_
  simp [FreezeSpendOk]

theorem forall₂_zip {α β γ δ : Type} {R : α → γ → Prop} {S : β → δ → Prop} : ∀ {l : List α} {m : List β} {l' : List γ}
    {m' : List δ}, List.Forall₂ R l l' → List.Forall₂ S m m' →
    List.Forall₂ (fun x y => R x.1 y.1 ∧ S x.2 y.2) (l.zip m) (l'.zip m')
  | _, _, _, _, .nil, _ => by simp
  | _, _, _, _, .cons _ _, .nil => by simp
  | _, _, _, _, .cons h h1, .cons h' h2 => .cons ⟨h, h'⟩ (forall₂_zip h1 h2)

theorem forall₂_of_map {l : List Var} {m : List F} (h : l.map a.f = m) : List.Forall₂ (fun v x => a.f v = x) l m := by
  subst h
  induction l with
  | nil => exact .nil
  | cons x l ih => exact .cons rfl ih

theorem zip_map_self {α β γ : Type} (f : α → β) (g : α → γ) (l : List α) :
    (l.map f).zip (l.map g) = l.map fun x => (f x, g x) := by
  induction l with
  | nil => rfl
  | cons x l ih => simp [ih]

theorem zip_zip_map {α β γ δ : Type} (f : α → β) (g : α → γ) (k : α → δ) (l : List α) (m : List F) :
    ((l.map f).zip (l.map g)).zip ((l.map k).zip m) = (l.zip m).map fun x => ((f x.1, g x.1), k x.1, x.2) := by
  induction l generalizing m with
  | nil => rfl
  | cons x l ih => cases m <;> simp [ih]

theorem Den.freezeGates (ha : Consts a) {wv : FreezeWitVar} {w : FreezeWit} (hw : FreezeWitReads a wv w) {pv : FreezePubVar}
    {p : FreezePub} (hp : FreezePubReads a pv p) : Den a (freezeGates wv pv) (fun _ => True) (FreezeSat w p) := by
  obtain ⟨ros, accs, outs, fee_sk, sks⟩ := wv
  obtain ⟨root, native, fee, nls, cms⟩ := pv
  obtain ⟨w1, w2, w3, w4, w5⟩ := id hw
  simp only at w1 w2 w3 w4 w5
  obtain ⟨r0, rs, hr0, hrs, rfl⟩ := List.forall₂_cons_right_iff.1 w1
  obtain ⟨a0, as, ha0, has, rfl⟩ := List.forall₂_cons_right_iff.1 w2
  obtain ⟨o0, os, ho0, hos, rfl⟩ := List.forall₂_cons_right_iff.1 w3
  have hn := hp.nullifiers
  have hc := hp.commitments
  simp only at hn hc
  obtain ⟨n0, ns, rfl, hn0, hns⟩ := List.map_eq_cons_iff.1 hn
  obtain ⟨c0, cs, rfl, hc0, hcs⟩ := List.map_eq_cons_iff.1 hc
  refine (Den.bind (Den.freezeFee ha hp hr0 ho0 ha0 w4 hn0) fun _ _ =>
    Den.bind (Den.forEach₂ (fun x y h => Den.freezePair ha h.1 h.2) (forall₂_zip hrs hos)) fun _ _ =>
    Den.bind (Den.forEach₂ (fun x y h => Den.freezeOutput ha h.1 h.2) (forall₂_zip w3 (forall₂_of_map hc))) fun _ _ =>
    Den.forEach₂ (R := fun x (y : FreezeInputV × F) => ((RecordReads a x.1.1 y.1.ro ∧ AccReads a x.1.2 y.1.acc) ∧
        a.f x.2.1 = y.1.sk ∧ a.f x.2.2 = y.2)) (fun x y h => Den.freezeSpend ha hp h.1.1 h.1.2 h.2.1 h.2.2)
      (m := w.inputs.zip p.nullifiers) ?_).iff ?_
  · have := forall₂_zip (forall₂_zip hrs has) (forall₂_zip (forall₂_of_map w5) (forall₂_of_map hns))
    rw [zip_zip_map, List.forall₂_map_right_iff] at this
    exact this
  · rw [zip_map_self, List.zip_cons_cons, List.zip_map_left]
    simp only [List.mem_map, List.mem_cons, forall_exists_index, and_imp, forall_apply_eq_imp_iff₂, Prod.forall, Prod.map,
      Prod.mk.injEq, forall_eq_or_imp, id]
    constructor
    · rintro ⟨⟨a1, a2, a3, a4, a5, a6, a7, a8, a9, a10⟩, h2, h3, h4⟩
      refine ⟨a1, a2, a3, a4, a5, a6, a7, a8, a9, a10, ?_, ?_, ?_, ?_⟩
      · exact fun i hi => h2 i hi
      · exact h3.1
      · exact fun x hx => h3.2 x.1.out x.2 x.1 x.2 hx rfl rfl
      · exact fun x hx => h4 x.1 x.2 hx
    · rintro ⟨a1, a2, a3, a4, a5, a6, a7, a8, a9, a10, a11, a12, a13, a14⟩
      refine ⟨⟨a1, a2, a3, a4, a5, a6, a7, a8, a9, a10⟩, fun i hi => a11 i hi, ?_, fun i x hx => a14 (i, x) hx⟩
      refine ⟨a12, ?_⟩
      rintro _ _ i x hx rfl rfl
      exact a13 (i, x) hx

end gates

end Cap.Plonk
