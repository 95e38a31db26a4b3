/-
The three circuits can be built: given variables that exist, the calls of `Model/Circuit/Build.lean` succeed.
-/
import Verif.Lemmas.CircuitSafe

namespace Cap.Plonk

variable [E : CapEnv] {n k : ℕ}

/-! ### Transfer -/

structure TransferWitVar.In (w : TransferWitVar) (n k : ℕ) : Prop where
  asset_code : w.asset_code < n
  policy : w.policy.In n
  inputs : ∀ i ∈ w.inputs, i.In n k
  outputs : ∀ o ∈ w.outputs, o.In n
  enc_rand : w.enc_rand < n

structure TransferPubVar.In (p : TransferPubVar) (n : ℕ) : Prop where
  root : p.root < n
  native : p.native_asset_code < n
  valid_until : p.valid_until < n
  fee : p.fee < n
  nullifiers : Plonk.In p.nullifiers n
  commitments : Plonk.In p.commitments n
  memo : p.memo.In n

omit E in
theorem TransferWitVar.In.mono {w : TransferWitVar} {n k n' k' : ℕ} (h : w.In n k) (hn : n ≤ n') (hk : k ≤ k') : w.In n' k' :=
  ⟨lt_of_lt_of_le h.asset_code hn, h.policy.mono hn, fun i hi => (h.inputs i hi).mono hn hk,
    fun o ho => (h.outputs o ho).mono hn, lt_of_lt_of_le h.enc_rand hn⟩

omit E in
theorem TransferPubVar.In.mono {p : TransferPubVar} {n n' : ℕ} (h : p.In n) (hn : n ≤ n') : p.In n' :=
  ⟨lt_of_lt_of_le h.root hn, lt_of_lt_of_le h.native hn, lt_of_lt_of_le h.valid_until hn, lt_of_lt_of_le h.fee hn,
    h.nullifiers.mono hn, h.commitments.mono hn, h.memo.mono hn⟩

theorem Safe.transferInputPos {w : TransferWitVar} {p : TransferPubVar} (hw : w.policy.In n) (hp : p.native_asset_code < n)
    (b : Bool) {i : InputVar} (hi : i.ro.In n) {d e : BVar} (hd : d.v < n) (he : e.v < n) (h2 : 2 ≤ n) :
    Safe (transferInputPos w p b i d e) n k fun _ _ _ => True := by
  cases b
  · sb (Safe.isDummyPolicy (by som))
    sb Safe.logicOrGate
    sb (Safe.policyCheckEqual (by som) (by som))
    exact Safe.logicOrGate
  · sb Safe.enforceEqual
    exact Safe.enforceDummy (by som) (by som)

theorem Safe.transferInput {w : TransferWitVar} {p : TransferPubVar} (hw : w.policy.In n) (hp : p.In n) (b : Bool)
    {i : InputVar} (hi : i.In n k) {v : Var} (hv : v < n) (h2 : 2 ≤ n) :
    Safe (transferInput w p b i v) n k fun _ _ _ => True := by
  obtain ⟨i1, i2, i3, i4⟩ := hi
  obtain ⟨p1, p2, p3, p4, -, -, -⟩ := hp
  sb Safe.enforceConstant _
  sb Safe.isDummy
  sb Safe.isZero
  sb Safe.logicNeg
  sb Safe.logicOrGate
  sb (Safe.transferInputPos (by som) (by som) b (by som) (by som) (by som) (by som))
  sb (Safe.proveSpend _ (by som) (i3.mono (by som)) (by som) (by som))
  sb Safe.enforceEqual
  sb Safe.isEqual
  sb Safe.logicOrGate
  sb Safe.isNeutralPoint
  sb (Safe.credVerify (i4.mono (by som) (by som)) (by som))
  exact Safe.logicOrGate

theorem Safe.transferOutput {w : TransferWitVar} {p : TransferPubVar} (hw : w.policy.In n ∧ w.asset_code < n) (hp : p.In n)
    (b : Bool) {o : RecordVar} (ho : o.In n) {v : Var} (hv : v < n) (h2 : 2 ≤ n) :
    Safe (transferOutput w p b o v) n k fun _ _ _ => True := by
  obtain ⟨p1, p2, p3, p4, -, -, -⟩ := hp
  sb Safe.enforceConstant _
  cases b
  · simp only [Bool.false_eq_true, if_false]
    sb Safe.enforceEqual
    sb (Safe.policyEnforceEqual (by som) (by som))
    sb Safe.commitment
    sb Safe.enforceEqual
    exact Safe.enforceInRange
  · simp only [if_true]
    sb Safe.enforceEqual
    sb (Safe.enforceDummy (by som) (by som))
    sb Safe.commitment
    sb Safe.enforceEqual
    exact Safe.enforceInRange

theorem Safe.inputMessage {l : List BVar} (hl : In (l.map (·.v)) n) (hlen : l.length = VIEWABLE_DATA_LEN) {i : InputVar}
    (hi : i.In n k) (h2 : 2 ≤ n) :
    Safe (inputMessage l i) n k fun r n' _ => In r n' ∧ r.length = VIEWABLE_DATA_LEN := by
  obtain ⟨i1, i2, i3, ⟨i4, i5, i6, i7, i8, i9⟩⟩ := hi
  unfold Plonk.inputMessage
  sb Safe.isDummy
  sb Safe.conditionalSelect
  sb Safe.conditionalSelect
  obtain ⟨b, l, rfl⟩ : ∃ b m, l = b :: m := List.exists_cons_of_length_eq_add_one hlen
  have hb := hl b.v (by simp)
  dsimp only
  sb Safe.logicOr
  have hl12 : (b :: l).length = 12 := hlen
  have h8 : i.cred.attrs.length = 8 := i9
  refine (Safe.hadamard (fun v hv => ?_) (fun v hv => ?_) ?_).mono fun r n' k' _ _ hr => ⟨hr.1, ?_⟩
  · obtain ⟨x, hx, rfl⟩ := List.mem_map.1 hv
    have old : ∀ y ∈ List.take ASSET_TRACING_MAP_LEN (b :: l) ++
        List.map (fun x => x.2) (i.cred.attrs.zip (List.drop ASSET_TRACING_MAP_LEN (b :: l))), y.v < n := by
      intro y hy
      refine hl y.v (List.mem_map_of_mem ?_)
      rcases List.mem_append.1 hy with hy | hy
      · exact List.mem_of_mem_take hy
      · obtain ⟨z, hz, rfl⟩ := List.mem_map.1 hy
        exact List.mem_of_mem_drop (List.of_mem_zip hz).2
    rcases List.mem_or_eq_of_mem_set hx with hx | rfl
    · rcases List.mem_or_eq_of_mem_set hx with hx | rfl
      · have := old x hx
        som
      · som
    · som
  · simp only [List.cons_append, List.nil_append, List.mem_cons, List.mem_map] at hv
    rcases hv with rfl | rfl | rfl | rfl | ⟨z, hz, rfl⟩
    · som
    · som
    · som
    · som
    · have := i4 _ (List.of_mem_zip hz).1
      som
  · simp only [ASSET_TRACING_MAP_LEN, List.length_map, List.length_set, List.length_append, List.length_take,
      List.length_zip, List.length_drop, List.length_cons, List.length_nil] at hl12 ⊢
    omega
  · rw [hr.2]
    simp only [ASSET_TRACING_MAP_LEN, VIEWABLE_DATA_LEN, List.length_map, List.length_append, List.length_set, List.length_take,
      List.length_zip, List.length_drop, List.length_cons, List.length_nil, REVEAL_MAP_LEN, ATTRS_LEN] at hl12 ⊢
    omega

theorem Safe.outputMessage {l : List BVar} (hl : In (l.map (·.v)) n) (hlen : l.length = VIEWABLE_DATA_LEN) {o : RecordVar}
    (ho : o.In n) : Safe (outputMessage l o) n k fun r n' _ => In r n' ∧ r.length = ASSET_TRACING_MAP_LEN := by
  have hl12 : l.length = 12 := hlen
  refine (Safe.hadamard (fun v hv => ?_) (by scp) ?_).mono fun r n' k' _ _ hr => ⟨hr.1, hr.2⟩
  · obtain ⟨x, hx, rfl⟩ := List.mem_map.1 hv
    exact hl _ (List.mem_map_of_mem (List.mem_of_mem_take hx))
  · simp [ASSET_TRACING_MAP_LEN, hl12]

omit E in
theorem forall₂_flatten {α : Type} {l : List α} {m : List (List Var)} {c n : ℕ}
    (h : List.Forall₂ (fun _ r => In r n ∧ r.length = c) l m) : In m.flatten n ∧ m.flatten.length = l.length * c := by
  induction h with
  | nil => simp [In]
  | cons h _ ih =>
    refine ⟨fun v hv => ?_, ?_⟩
    · rw [List.flatten_cons, List.mem_append] at hv
      exact hv.elim (h.1 v) (ih.1 v)
    · rw [List.flatten_cons, List.length_append, h.2, ih.2, List.length_cons]
      ring

theorem Safe.transferCorrectMemo {w : TransferWitVar} {p : TransferPubVar} (hw : w.In n k) (hp : p.memo.In n) (h2 : 2 ≤ n)
    (hl : p.memo.symm_ctxts.length
      = 1 + w.inputs.tail.length * VIEWABLE_DATA_LEN + w.outputs.tail.length * ASSET_TRACING_MAP_LEN) :
    Safe (transferCorrectMemo w p) n k fun x n' _ => x.v < n' := by
  obtain ⟨w1, w2, w3, w4, w5⟩ := hw
  refine Safe.bind Safe.unpack fun l n1 k1 hn1 hk1 hl1 => ?_
  have hrev : In (l.reverse.map (·.v)) n1 := fun v hv => hl1.1 v (by simpa using hv)
  have hlr : l.reverse.length = VIEWABLE_DATA_LEN := by rw [List.length_reverse, hl1.2]
  refine Safe.bind (Safe.collect (P := fun i n k => i.In n k ∧ In (l.reverse.map BVar.v) n ∧ 2 ≤ n)
    (Q := fun _ r n _ => In r n ∧ r.length = VIEWABLE_DATA_LEN)
    (fun x n k hx => Safe.inputMessage hx.2.1 hlr hx.1 hx.2.2)
    (fun x n k n' k' hn hk hx => ⟨hx.1.mono hn hk, hx.2.1.mono hn, hx.2.2.trans hn⟩)
    (fun x y n k n' k' hn hk hy => ⟨hy.1.mono hn, hy.2⟩) _ n1 k1 fun i hi =>
      ⟨(w3 i (List.mem_of_mem_tail hi)).mono hn1 hk1, hrev, h2.trans hn1⟩) fun ins n2 k2 hn2 hk2 hins => ?_
  refine Safe.bind (Safe.collect (P := fun o n _ => o.In n ∧ In (l.reverse.map BVar.v) n)
    (Q := fun _ r n _ => In r n ∧ r.length = ASSET_TRACING_MAP_LEN)
    (fun x n k hx => Safe.outputMessage hx.2 hlr hx.1)
    (fun x n k n' k' hn hk hx => ⟨hx.1.mono hn, hx.2.mono hn⟩)
    (fun x y n k n' k' hn hk hy => ⟨hy.1.mono hn, hy.2⟩) _ n2 k2 fun i hi =>
      ⟨(w4 i (List.mem_of_mem_tail hi)).mono (hn1.trans hn2), hrev.mono hn2⟩) fun outs n3 k3 hn3 hk3 houts => ?_
  have fi := forall₂_flatten hins
  have fo := forall₂_flatten houts
  have hn : n ≤ n3 := hn1.trans (hn2.trans hn3)
  refine Safe.bind (Safe.elgamalEncrypt (w2.1.mono hn) (fun v hv => ?_) (lt_of_lt_of_le w5 hn)) fun m n4 k4 hn4 hk4 hm =>
    Safe.memoCheckEqual (hp.mono (hn.trans hn4)) hm.1 ?_
  · rw [List.append_assoc, List.mem_append, List.mem_append] at hv
    rcases hv with hv | hv | hv
    · rw [List.mem_singleton] at hv
      subst hv
      exact lt_of_lt_of_le w1 hn
    · exact lt_of_lt_of_le (fi.1 v hv) hn3
    · exact fo.1 v hv
  · rw [hm.2, hl, List.length_append, List.length_append, fi.2, fo.2]
    rfl

theorem Safe.transferGates {w : TransferWitVar} {p : TransferPubVar} (hw : w.In n k) (hp : p.In n) (h2 : 2 ≤ n)
    (ni : w.inputs ≠ []) (no : w.outputs ≠ [])
    (hl : p.memo.symm_ctxts.length
      = 1 + w.inputs.tail.length * VIEWABLE_DATA_LEN + w.outputs.tail.length * ASSET_TRACING_MAP_LEN) :
    Safe (transferGates w p) n k fun _ _ _ => True := by
  refine Safe.bind (Safe.forPos (P := fun i n k => i.In n k ∧ w.policy.In n ∧ p.In n ∧ 2 ≤ n)
    (fun b x v n k hx hv => Safe.transferInput hx.2.1 hx.2.2.1 b hx.1 hv hx.2.2.2)
    (fun x n k n' k' hn hk hx => ⟨hx.1.mono hn hk, hx.2.1.mono hn, hx.2.2.1.mono hn, hx.2.2.2.trans hn⟩) true _ _ n k
    (fun i hi => ⟨hw.inputs i hi, hw.policy, hp, h2⟩) hp.nullifiers) fun _ n1 k1 hn1 hk1 _ => ?_
  refine Safe.bind (Safe.forPos (P := fun o n _ => o.In n ∧ (w.policy.In n ∧ w.asset_code < n) ∧ p.In n ∧ 2 ≤ n)
    (fun b x v n k hx hv => Safe.transferOutput hx.2.1 hx.2.2.1 b hx.1 hv hx.2.2.2)
    (fun x n k n' k' hn hk hx => ⟨hx.1.mono hn, ⟨hx.2.1.1.mono hn, lt_of_lt_of_le hx.2.1.2 hn⟩, hx.2.2.1.mono hn,
      hx.2.2.2.trans hn⟩) true _ _ n1 k1
    (fun o ho => ⟨(hw.outputs o ho).mono hn1, ⟨hw.policy.mono hn1, lt_of_lt_of_le hw.asset_code hn1⟩, hp.mono hn1,
      h2.trans hn1⟩) (hp.commitments.mono hn1)) fun _ n2 k2 hn2 hk2 _ => ?_
  have hn := hn1.trans hn2
  have hk := hk1.trans hk2
  have hw' := hw.mono hn hk
  have hp' := hp.mono hn
  have h2' := h2.trans hn
  obtain ⟨w1, w2, w3, w4, w5⟩ := hw'
  sb (Safe.preserveBalance ⟨hp'.native, w1, hp'.fee⟩ (fun v hv => ?_) (fun v hv => ?_) h2' ?_ ?_)
  · obtain ⟨i, hi, rfl⟩ := List.mem_map.1 hv
    exact (w3 i hi).ro.1
  · obtain ⟨i, hi, rfl⟩ := List.mem_map.1 hv
    exact (w4 i hi).1
  · simpa using ni
  · simpa using no
  sb Safe.sub
  sb Safe.isInRange
  sb Safe.isNeutralPoint
  sb Safe.logicOr
  sb (Safe.transferCorrectMemo (hw.mono (by som) (by som)) (hp.memo.mono (by som)) (by som) hl)
  exact Safe.logicOrGate

/-! ### Mint -/

structure MintWitVar.In (w : MintWitVar) (n : ℕ) : Prop where
  mint_ro : w.mint_ro.In n
  creator_sk : w.creator_sk < n
  fee_ro : w.fee_ro.In n
  acc : w.acc.In n
  chg_ro : w.chg_ro.In n
  ac_seed : w.ac_seed < n
  ac_digest : w.ac_digest < n
  enc_rand : w.enc_rand < n

structure MintPubVar.In (p : MintPubVar) (n : ℕ) : Prop where
  root : p.root < n
  native : p.native_asset_code < n
  mint_amount : p.mint_amount < n
  mint_ac : p.mint_ac < n
  mint_internal_ac : p.mint_internal_ac < n
  mint_policy : p.mint_policy.In n
  mint_rc : p.mint_rc < n
  chg_rc : p.chg_rc < n
  fee : p.fee < n
  input_nullifier : p.input_nullifier < n
  memo : p.memo.In n

set_option maxHeartbeats 1600000 in
theorem Safe.mintGates {w : MintWitVar} {p : MintPubVar} (hw : w.In n) (hp : p.In n) (h2 : 2 ≤ n)
    (hl : p.memo.symm_ctxts.length = 3) : Safe (mintGates w p) n k fun _ _ _ => True := by
  obtain ⟨w1, w2, w3, w4, w5, w6, w7, w8⟩ := hw
  obtain ⟨p1, p2, p3, p4, p5, p6, p7, p8, p9, p10, p11⟩ := hp
  sb Safe.commitment
  sb Safe.enforceEqual
  sb Safe.commitment
  sb Safe.enforceEqual
  sb (Safe.evalPrf (by som) (by scp))
  sb Safe.enforceEqual
  sb Safe.addGate
  sb (Safe.proveSpend _ (by som) (w4.mono (by som)) (by som) (by som))
  sb Safe.enforceEqual
  sb Safe.enforceEqual
  sb Safe.enforceConstant _
  sb Safe.enforceConstant _
  sb Safe.enforceConstant _
  sb Safe.enforceInRange
  sb Safe.enforceEqual
  sb Safe.enforceEqual
  sb (Safe.policyEnforceEqual (by som) (by som))
  sb Safe.enforceEqual
  sb Safe.enforceEqual
  sb (Safe.enforceDummy (by som) (by som))
  sb (Safe.enforceDummy (by som) (by som))
  sb Safe.enforcePointEqual
  sb Safe.isNeutralPoint
  refine Safe.bind (Q := fun x n' _ => x.v < n') (Safe.bind (Safe.elgamalEncrypt (by som) (by scp) (by som))
    fun m n4 k4 hn4 hk4 hm => Safe.memoCheckEqual (p11.mono (by som)) hm.1 ?_) fun _ _ _ _ _ _ => Safe.logicOrGate
  rw [hm.2, hl]
  rfl

/-! ### Freeze -/

structure FreezeWitVar.In (w : FreezeWitVar) (n : ℕ) : Prop where
  input_ros : ∀ r ∈ w.input_ros, r.In n
  accs : ∀ r ∈ w.accs, r.In n
  output_ros : ∀ r ∈ w.output_ros, r.In n
  fee_sk : w.fee_sk < n
  freezing_sks : Plonk.In w.freezing_sks n

structure FreezePubVar.In (p : FreezePubVar) (n : ℕ) : Prop where
  root : p.root < n
  native : p.native_asset_code < n
  fee : p.fee < n
  nullifiers : Plonk.In p.nullifiers n
  commitments : Plonk.In p.commitments n

theorem Safe.freezeFee {p : FreezePubVar} (hp : p.In n) {i o : RecordVar} {c : AccVar} {sk v : Var} (hi : i.In n) (ho : o.In n)
    (hc : c.In n) (hs : sk < n) (hv : v < n) (h2 : 2 ≤ n) : Safe (freezeFee p i o c sk v) n k fun _ _ _ => True := by
  obtain ⟨p1, p2, p3, p4, p5⟩ := hp
  sb Safe.enforceEqual
  sb (Safe.enforceDummy (by som) (by som))
  sb Safe.enforceEqual
  sb (Safe.enforceDummy (by som) (by som))
  sb Safe.enforceConstant _
  sb Safe.enforceConstant _
  sb Safe.addGate
  sb (Safe.proveSpend _ (by som) (hc.mono (by som)) (by som) (by som))
  sb Safe.enforceEqual
  exact Safe.enforceEqual

theorem Safe.freezePair {x : RecordVar × RecordVar} (h1 : x.1.In n) (h2 : x.2.In n) (h : 2 ≤ n) :
    Safe (freezePair x) n k fun _ _ _ => True := by
  sb Safe.addGate
  sb Safe.enforceEqual
  sb Safe.enforcePointEqual
  sb Safe.enforceEqual
  exact Safe.policyEnforceEqual (by som) (by som)

theorem Safe.freezeOutput {x : RecordVar × Var} (h1 : x.1.In n) (h2 : x.2 < n) (h : 2 ≤ n) :
    Safe (freezeOutput x) n k fun _ _ _ => True := by
  sb Safe.commitment
  exact Safe.enforceEqual

theorem Safe.freezeSpend {p : FreezePubVar} (hp : p.root < n) {x : (RecordVar × AccVar) × Var × Var} (h1 : x.1.1.In n)
    (h2 : x.1.2.In n) (h3 : x.2.1 < n) (h4 : x.2.2 < n) (h : 2 ≤ n) : Safe (freezeSpend p x) n k fun _ _ _ => True := by
  sb Safe.isNeutralPoint
  sb Safe.logicNeg
  sb Safe.isDummy
  sb Safe.logicOrGate
  sb (Safe.proveSpend _ (by som) (h2.mono (by som)) (by som) (by som))
  sb Safe.isEqual
  sb Safe.logicOrGate
  exact Safe.enforceEqual

theorem Safe.freezeGates {w : FreezeWitVar} {p : FreezePubVar} (hw : w.In n) (hp : p.In n) (h2 : 2 ≤ n)
    (ni : w.input_ros ≠ []) (na : w.accs ≠ []) (no : w.output_ros ≠ []) (nn : p.nullifiers ≠ []) :
    Safe (freezeGates w p) n k fun _ _ _ => True := by
  obtain ⟨ros, accs, outs, sk, sks⟩ := w
  obtain ⟨root, native, fee, nls, rcs⟩ := p
  obtain ⟨i0, ros, rfl⟩ := List.exists_cons_of_ne_nil ni
  obtain ⟨a0, accs, rfl⟩ := List.exists_cons_of_ne_nil na
  obtain ⟨o0, outs, rfl⟩ := List.exists_cons_of_ne_nil no
  obtain ⟨n0, nls, rfl⟩ := List.exists_cons_of_ne_nil nn
  have hp' := hp
  obtain ⟨w1, w2, w3, w4, w5⟩ := hw
  obtain ⟨p1, p2, p3, p4, p5⟩ := hp'
  dsimp only at *
  refine Safe.bind (Safe.freezeFee hp (w1 i0 (by simp)) (w3 o0 (by simp)) (w2 a0 (by simp)) w4 (p4 n0 (by simp)) h2)
    fun _ n1 k1 hn1 hk1 _ => ?_
  refine Safe.bind (Safe.forEach (P := fun x n _ => x.1.In n ∧ x.2.In n ∧ 2 ≤ n)
    (fun x n k hx => Safe.freezePair hx.1 hx.2.1 hx.2.2)
    (fun x n k n' k' hn hk hx => ⟨hx.1.mono hn, hx.2.1.mono hn, hx.2.2.trans hn⟩) _ n1 k1 fun x hx =>
      ⟨(w1 _ (List.mem_of_mem_tail (List.of_mem_zip hx).1)).mono hn1, (w3 _ (List.mem_of_mem_tail (List.of_mem_zip hx).2)).mono hn1,
        h2.trans hn1⟩) fun _ n2 k2 hn2 hk2 _ => ?_
  have hn := hn1.trans hn2
  refine Safe.bind (Safe.forEach (P := fun x n _ => x.1.In n ∧ x.2 < n ∧ 2 ≤ n)
    (fun x n k hx => Safe.freezeOutput hx.1 hx.2.1 hx.2.2)
    (fun x n k n' k' hn hk hx => ⟨hx.1.mono hn, lt_of_lt_of_le hx.2.1 hn, hx.2.2.trans hn⟩) _ n2 k2 fun x hx =>
      ⟨(w3 _ (List.of_mem_zip hx).1).mono hn, lt_of_lt_of_le (p5 _ (List.of_mem_zip hx).2) hn,
        h2.trans hn⟩) fun _ n3 k3 hn3 hk3 _ => ?_
  have hn' := hn.trans hn3
  refine Safe.forEach (P := fun x n _ => x.1.1.In n ∧ x.1.2.In n ∧ x.2.1 < n ∧ x.2.2 < n ∧ root < n ∧ 2 ≤ n)
    (fun x n k hx => Safe.freezeSpend hx.2.2.2.2.1 hx.1 hx.2.1 hx.2.2.1 hx.2.2.2.1 hx.2.2.2.2.2)
    (fun x n k n' k' hn hk hx => ⟨hx.1.mono hn, hx.2.1.mono hn, lt_of_lt_of_le hx.2.2.1 hn, lt_of_lt_of_le hx.2.2.2.1 hn,
      lt_of_lt_of_le hx.2.2.2.2.1 hn, hx.2.2.2.2.2.trans hn⟩) _ n3 k3 fun x hx => ?_
  have h1 := List.of_mem_zip (List.of_mem_zip hx).1
  have h3 := List.of_mem_zip (List.of_mem_zip hx).2
  exact ⟨(w1 _ (List.mem_of_mem_tail h1.1)).mono hn', (w2 _ (List.mem_of_mem_tail h1.2)).mono hn',
    lt_of_lt_of_le (w5 _ h3.1) hn', lt_of_lt_of_le (p4 _ (List.mem_of_mem_tail h3.2)) hn', lt_of_lt_of_le p1 hn',
    h2.trans hn'⟩

end Cap.Plonk
